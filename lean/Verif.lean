import Verif.Spec.Sha1
import Verif.Spec.Md5
import Verif.Model.Calculate
import Verif.Proofs.Instances
import Verif.Proofs.Api
import Verif.Proofs.Kinds
import Verif.Props.Streaming
import Verif.Props.Histories
import Verif.Props.Vectors
import Verif.Props.OneShot
import Verif.Props.Hmac
import Verif.Props.Transform
import Verif.Props.ByteOrder
import Verif.Props.Padding
import Verif.Props.Deprecated
import Verif.Props.Independence
import Verif.Props.DigestString
import Verif.Props.ByteSize
import Verif.Props.SumHandle
import Verif.Props.Getopt
import Verif.Props.Hmacsum
import Verif.Props.Constants
import Verif.Props.Backend
import Verif.Props.Python
import Verif.Props.BackendOneShot
import Verif.Props.HmacCollision
import Verif.Props.Errors
import Verif.Props.BackendErrors
import Verif.Props.Trace
import Verif.Props.PyError
import Verif.Props.PyModule
import Verif.Props.Messages
import Verif.Props.OneShotErrors
import Verif.Props.Work
import Verif.Props.Extension
import Verif.Props.Fuzz
import Verif.Props.PyThreads
import Verif.Props.Host
import Verif.Props.Signal
import Verif.Props.Output
import Verif.Props.OutputMore
import Verif.Props.PyJobs
import Verif.Props.PyJobsMore
import Verif.Props.PyJobsRaces
import Verif.Props.Changing
import Verif.Props.Library
import Verif.Props.Builds
import Verif.Props.HostTool
import Verif.Props.MultiBuilds
import Verif.Props.PyBuilds
import Verif.Props.PyText
import Verif.Props.BuildsMessages
import Verif.Props.Notes
import Verif.Props.BackendNotes
import Verif.Props.BuildsSignal
import Verif.Props.FuzzBuilds
import Verif.Props.Configure
import Verif.Props.EndToEnd
import Verif.Props.HostBackend
import Verif.Props.HostPrograms
import Verif.Props.Once
import Verif.Props.Allocs
import Verif.Props.HandleCalls
import Verif.Props.HandleBuilds
import Verif.Props.HandleBuildsRun
import Verif.Props.HostMessages
import Verif.Props.SplitString
import Verif.Props.FileCollision
import Verif.Props.FileCalls
import Verif.Props.Agreement
import Verif.Props.SignalFileCalls

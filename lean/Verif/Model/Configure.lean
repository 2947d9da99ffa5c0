import Verif.Model.Builds
/-! What `configure` decides about the crypto library, and what is compiled then: configure.ac:71-74, acinclude.m4:6-43, m4/libcrypto.m4, and the conditions of the preprocessor in
libhmac/libhmac_{md5,sha1,sha224,sha256,sha512}_context.h and .c.

The result of each test of the system is a fact of the system (`System`) and the same each time it is asked. Shell variables are not set before (no cache file, none given by the user). Left out: compiler and linker flags, the
cipher functions, the tests of other libraries, the substitutions in other files than libhmac.pc. -/

namespace Model.Configure

open Spec (Kind)

/-- The functions of the crypto library that are looked for. (m4/libcrypto.m4:85-160, 196-275, 288-430.) -/
inductive Fn where
  | ctxNew | ctxFree | ctxInit | ctxCleanup | removeThreadState
  | digestInitEx2 | ctxReset | mdFetch | mdFree | digestInitEx | digestUpdate | digestFinalEx
  | evp (k : Kind)
  | init (k : Kind) | update (k : Kind) | final (k : Kind)
  deriving DecidableEq

/-- The headers that are looked for. (m4/libcrypto.m4:64, 281, 312.) -/
inductive Header where
  | evp | md5 | sha
  deriving DecidableEq

/-- The header of the direct functions of an algorithm. (m4/libcrypto.m4:281, 312, 343, 374, 405.) -/
def headerOf : Kind → Header
  | .md5 => .md5
  | _ => .sha

/-- The system: the headers and functions found, whether openssl/evp.h can be used with zlib.h, whether pkg-config is used and knows openssl >= 1.0 (`none`: there is no pkg-config, or the build is for another host), whether
the header of an algorithm defines the length of its digest (MD5_DIGEST_LENGTH, SHA_DIGEST_LENGTH, SHA224_DIGEST_LENGTH, ...), and SIZEOF_LONG < SIZEOF_SIZE_T. (Answers to the tests of m4/libcrypto.m4; not code of /repo.) -/
structure System where
  header : Header → Bool
  func : Fn → Bool
  zlib : Bool
  pkgConfig : Option Bool
  length : Kind → Bool
  smallLong : Bool

/-- The value of --with-openssl: `auto` is also "yes" and the empty text; a directory exists or not. (m4/libcrypto.m4:622-653, 946-951.) -/
inductive WithOpenssl where
  | no | auto | dir (there : Bool)
  deriving DecidableEq

/-- The value of --enable-openssl-evp-md. (m4/libcrypto.m4:959-963.) -/
inductive EnableEvp where
  | no | auto | yes
  deriving DecidableEq

/-- The options: --with-openssl, --enable-openssl-evp-md, --disable-shared-libs and --enable-static-executables. (configure.ac:47, 50; m4/common.m4:54-59, 80-96; m4/libcrypto.m4:946-963.) -/
structure BuildOptions where
  openssl : WithOpenssl
  evpMd : EnableEvp
  sharedLibs : Bool
  staticExecutables : Bool

/-- A shell variable that is not set, "no" or "yes". (m4/libcrypto.m4:68-77, 83, 644-647.) -/
inductive Sh where
  | unset | no | yes
  deriving DecidableEq

/-- The shell variable of an algorithm: not set, "no", "libcrypto" or "libcrypto_evp". (m4/libcrypto.m4:199-200, 285-302, 716 and the like.) -/
inductive Found where
  | unset | no | libcrypto | libcryptoEvp
  deriving DecidableEq

/-- The variables ac_cv_libcrypto, ac_cv_libcrypto_evp, ac_cv_libcrypto_evp_md, ac_cv_libcrypto_md5 (sha1, ...), `ac_cv_lib_crypto_EVP_MD_CTX_init` = yes, `ac_cv_lib_crypto_EVP_MD_CTX_cleanup` = yes, and the macros
defined in config.h: HAVE_LIBCRYPTO, HAVE_OPENSSL_EVP_H, HAVE_OPENSSL_MD5_H and HAVE_OPENSSL_SHA_H, HAVE_EVP_MD_CTX_INIT, HAVE_EVP_MD_CTX_CLEANUP, HAVE_EVP_DIGESTINIT_EX2, HAVE_EVP_MD5 (SHA1, ...); and whether -lcrypto
is named in libhmac.pc. (m4/libcrypto.m4:63-275, 621-712, 983-988.) -/
structure Shell where
  libcrypto : Sh
  evp : Sh
  evpMd : Sh
  alg : Kind → Found
  ctxInit : Bool
  ctxCleanup : Bool
  haveLibcrypto : Bool
  haveHeader : Header → Bool
  haveCtxInit : Bool
  haveCtxCleanup : Bool
  haveInitEx2 : Bool
  haveEvp : Kind → Bool
  pc : Bool

/-- At the start of configure nothing is set. (configure.ac:1.) -/
def start : Shell :=
  ⟨.unset, .unset, .unset, fun _ => .unset, false, false, false, fun _ => false, false, false, false, fun _ => false, false⟩

/-- `AC_CHECK_HEADERS`: defines the macro of a header that is found. (m4/libcrypto.m4:64, 281, 312, 343, 374, 405.) -/
def checkHeader (S : System) (h : Header) (s : Shell) : Shell :=
  if S.header h then { s with haveHeader := Function.update s.haveHeader h true } else s

/-- `AX_LIBCRYPTO_CHECK_OPENSSL_EVP` (m4/libcrypto.m4:63-79). -/
def checkOpensslEvp (S : System) (s : Shell) : Shell :=
  let s := checkHeader S .evp s
  if !S.header .evp then { s with libcrypto := .no, evp := .no }
  else if S.zlib then { s with libcrypto := .yes, evp := .yes }
  else { s with libcrypto := .no, evp := .no }

/-- `AC_CHECK_LIB( crypto, f, ..., [ac_cv_libcrypto_evp_md=no])`. (m4/libcrypto.m4:94-160.) -/
def needEvpMd (S : System) (f : Fn) (s : Shell) : Shell := if S.func f then s else { s with evpMd := .no }

/-- The functions that make and free an EVP context (m4/libcrypto.m4:85-117). -/
def checkEvpContext (S : System) (s : Shell) : Shell :=
  if S.func .ctxNew then needEvpMd S .ctxFree s
  else needEvpMd S .removeThreadState { needEvpMd S .ctxCleanup (needEvpMd S .ctxInit s) with ctxInit := S.func .ctxInit, ctxCleanup := S.func .ctxCleanup }

/-- The functions that start an EVP digest (m4/libcrypto.m4:119-149). -/
def checkEvpInit (S : System) (s : Shell) : Shell :=
  if S.func .digestInitEx2 then needEvpMd S .mdFree (needEvpMd S .mdFetch (needEvpMd S .ctxReset s)) else needEvpMd S .digestInitEx s

/-- The macros of the EVP functions (m4/libcrypto.m4:169-191). -/
def defineEvp (S : System) (s : Shell) : Shell :=
  { s with haveCtxInit := s.ctxInit || s.haveCtxInit, haveCtxCleanup := s.ctxCleanup || s.haveCtxCleanup, haveInitEx2 := S.func .digestInitEx2 || s.haveInitEx2 }

/-- `AX_LIBCRYPTO_CHECK_OPENSSL_EVP_MD` (m4/libcrypto.m4:82-192). `none`: configure stops (lines 162-167). -/
def checkOpensslEvpMd (S : System) (o : BuildOptions) (s : Shell) : Option Shell :=
  let s := needEvpMd S .digestFinalEx (needEvpMd S .digestUpdate (checkEvpInit S (checkEvpContext S { s with evpMd := .yes })))
  if o.evpMd = .yes ∧ s.evpMd = .no then none else some (defineEvp S s)

/-- `AX_LIBCRYPTO_CHECK_OPENSSL_EVP_MD5`, `..._SHA1` and so on (m4/libcrypto.m4:195-277). -/
def checkOpensslEvpAlg (S : System) (k : Kind) (s : Shell) : Shell :=
  if S.func (.evp k) then { s with alg := Function.update s.alg k .libcryptoEvp, haveEvp := Function.update s.haveEvp k true }
  else { s with alg := Function.update s.alg k .no }

/-- `AC_CHECK_LIB( crypto, f, ..., [ac_cv_libcrypto_md5=no])` and the like. (m4/libcrypto.m4:288-302 and the like.) -/
def needAlg (S : System) (k : Kind) (f : Fn) (s : Shell) : Shell := if S.func f then s else { s with alg := Function.update s.alg k .no }

/-- `AX_LIBCRYPTO_CHECK_OPENSSL_MD5`, `..._SHA1` and so on (m4/libcrypto.m4:280-432). -/
def checkOpensslAlg (S : System) (k : Kind) (s : Shell) : Shell :=
  let s := checkHeader S (headerOf k) s
  let s :=
    if !S.header (headerOf k) then { s with alg := Function.update s.alg k .no }
    else
      let s := { s with alg := Function.update s.alg k .libcrypto }
      needAlg S k (.final k) (needAlg S k (.update k) (needAlg S k (.init k) s))
  if s.libcrypto = .no ∧ s.alg k = .libcrypto then { s with libcrypto := .yes } else s

/-- `AX_LIBCRYPTO_CHECK_LIB` (m4/libcrypto.m4:621-712). `none`: configure stops. The test of `ac_cv_header_openssl_opensslv` (lines 662-664) is never true: the variable has another name, and the value is compared with "xyes". -/
def checkLib (S : System) (o : BuildOptions) (s : Shell) : Option Shell :=
  if !o.sharedLibs || o.openssl = .no then some { s with libcrypto := .no }
  else if o.openssl = .dir false then none
  else
    let s :=
      match o.openssl, S.pkgConfig with
      | .auto, some true => { s with libcrypto := .yes, evp := .yes }
      | .auto, some false => { s with libcrypto := .no, evp := .no }
      | _, _ => s
    let s := if s.libcrypto ≠ .yes then checkOpensslEvp S s else s
    let s := if s.libcrypto = .yes ∧ s.evp = .yes then { s with haveHeader := Function.update s.haveHeader .evp true } else s
    some (if s.libcrypto ≠ .no then { s with haveLibcrypto := true } else s)

/-- `AX_LIBCRYPTO_CHECK_ENABLE` (m4/libcrypto.m4:945-999), without the cipher option and the flags. -/
def checkEnable (S : System) (o : BuildOptions) (s : Shell) : Option Shell := do
  let s ← if !o.staticExecutables then checkLib S o s else some s
  pure (if s.libcrypto ≠ .no then { s with pc := true } else s)

/-- `AX_LIBCRYPTO_CHECK_MD5` (m4/libcrypto.m4:715-732), and `AX_LIBCRYPTO_CHECK_SHA1` and so on (lines 735-812), which also ask for the option --enable-openssl-evp-md. -/
def checkAlg (S : System) (o : BuildOptions) (k : Kind) (s : Shell) : Option Shell := do
  let s := { s with alg := Function.update s.alg k .no }
  let s ← if s.evp = .yes ∧ (k = .md5 ∨ o.evpMd ≠ .no) ∧ s.evpMd ≠ .yes then checkOpensslEvpMd S o s else some s
  let s := if s.evpMd = .yes then checkOpensslEvpAlg S k s else s
  pure (if s.alg k = .no then checkOpensslAlg S k s else s)

/-- The checks of acinclude.m4:8-17. -/
def checkLocal (S : System) (o : BuildOptions) (s : Shell) : Option Shell := do
  let s ← checkEnable S o s
  if s.libcrypto ≠ .no then do
    let s ← checkAlg S o .md5 s
    let s ← checkAlg S o .sha1 s
    let s ← checkAlg S o .sha224 s
    let s ← checkAlg S o .sha256 s
    checkAlg S o .sha512 s
  else some s

/-- configure.ac:71-74: AX_LIBCRYPTO_CHECK_ENABLE, AX_LIBHMAC_CHECK_LOCAL. `none`: configure stops. -/
def configure (S : System) (o : BuildOptions) : Option Shell := do
  let s ← checkEnable S o start
  checkLocal S o s

/-- What the summary tells about an algorithm: "local", "libcrypto" or "libcrypto_evp". (configure.ac:198-202.) -/
inductive Told where
  | builtin | libcrypto | libcryptoEvp | nothing
  deriving DecidableEq

/-- ac_cv_libhmac_md5 and so on (acinclude.m4:19-42; printed by configure.ac:198-202). -/
def summary (s : Shell) (k : Kind) : Told :=
  if s.libcrypto = .no ∨ s.alg k = .no then .builtin
  else match s.alg k with
    | .libcrypto => .libcrypto
    | .libcryptoEvp => .libcryptoEvp
    | _ => .nothing

/-! ### The preprocessor -/

/-- The macros of the conditions. (libhmac/libhmac_md5_context.h:28-65, libhmac/libhmac_md5_context.c:27-1052 and the like.) -/
inductive Macro where
  | libcrypto | md5H | shaH | evpH | ctxInit | ctxCleanup | initEx2
  | length (k : Kind) | evp (k : Kind)
  deriving DecidableEq

/-- The values of the macros. (Not code of /repo: config.h and the headers of the library.) -/
abbrev Config := Macro → Bool

/-- The macros of a configured system. The length of a digest counts only beside the macro of its header, where the header is included. (common/config.h, configure.ac:183; libhmac/libhmac_md5_context.h:28-33.) -/
def config (S : System) (s : Shell) : Config
  | .libcrypto => s.haveLibcrypto
  | .md5H => s.haveHeader .md5
  | .shaH => s.haveHeader .sha
  | .evpH => s.haveHeader .evp
  | .ctxInit => s.haveCtxInit
  | .ctxCleanup => s.haveCtxCleanup
  | .initEx2 => s.haveInitEx2
  | .length k => S.length k
  | .evp k => s.haveEvp k

/-- The branches of a condition: of the direct functions, of the EVP functions, and `#else`. (libhmac/libhmac_md5_context.h:57-88 and the like.) -/
inductive Branch where
  | direct | evp | other
  deriving DecidableEq

/-- The places with `#if ... #elif ... #else`: the headers included by the header and by the source file, the macro LIBHMAC_HAVE_MD5_SUPPORT (and the like), the members of the context, and the bodies of four functions.
(libhmac/libhmac_md5_context.h:28-33, 43-49, 57-88; libhmac/libhmac_md5_context.c:27-33, 488-574, 615-645, 653-974, 976-.) -/
inductive Place where
  | header | source | support | layout | «initialize» | free | update | finalize
  deriving DecidableEq

/-- The conditions; each with its lines in the files of its algorithm. (libhmac/libhmac_md5_context.h:28-88, libhmac/libhmac_md5_context.c:27-1052 and the like.) -/
def guards : Kind → Place → List (List Macro × Branch)
  | .md5, .header => [([.libcrypto, .md5H], .direct), ([.libcrypto, .evpH], .evp)] -- .h:28, 31
  | .sha1, .header => [([.libcrypto, .shaH], .direct), ([.libcrypto, .evpH], .evp)] -- .h:28, 31
  | .sha224, .header => [([.libcrypto, .shaH], .direct), ([.libcrypto, .evpH], .evp)] -- .h:28, 31
  | .sha256, .header => [([.libcrypto, .shaH], .direct), ([.libcrypto, .evpH], .evp)] -- .h:28, 31
  | .sha512, .header => [([.libcrypto, .shaH], .direct), ([.libcrypto, .evpH], .evp)] -- .h:28, 31
  | .md5, .source => [([.libcrypto, .md5H], .direct), ([.libcrypto, .evpH], .evp)] -- .c:27, 30
  | .sha1, .source => [([.libcrypto, .shaH], .direct), ([.libcrypto, .evpH], .evp)] -- .c:27, 30
  | .sha224, .source => [([.libcrypto, .shaH], .direct), ([.libcrypto, .evpH], .evp)] -- .c:27, 30
  | .sha256, .source => [([.libcrypto, .shaH], .direct), ([.libcrypto, .evpH], .evp)] -- .c:27, 30
  | .sha512, .source => [([.libcrypto, .shaH], .direct), ([.libcrypto, .evpH], .evp)] -- .c:27, 30
  | .md5, .support => [([.libcrypto, .md5H, .length .md5], .direct), ([.libcrypto, .evpH, .evp .md5], .evp)] -- .h:43, 46
  | .sha1, .support => [([.libcrypto, .shaH, .length .sha1], .direct), ([.libcrypto, .evpH, .evp .sha1], .evp)] -- .h:43, 46
  | .sha224, .support => [([.libcrypto, .shaH, .length .sha224], .direct), ([.libcrypto, .evpH, .evp .sha224], .evp)] -- .h:43, 46
  | .sha256, .support => [([.libcrypto, .shaH, .length .sha256], .direct), ([.libcrypto, .evpH, .evp .sha256], .evp)] -- .h:43, 46
  | .sha512, .support => [([.libcrypto, .shaH, .length .sha512], .direct), ([.libcrypto, .evpH, .evp .sha512], .evp)] -- .h:43, 46
  | .md5, .layout => [([.libcrypto, .md5H, .length .md5], .direct), ([.libcrypto, .evpH, .evp .md5], .evp)] -- .h:57, 62
  | .sha1, .layout => [([.libcrypto, .shaH, .length .sha1], .direct), ([.libcrypto, .evpH, .evp .sha1], .evp)] -- .h:57, 62
  | .sha224, .layout => [([.libcrypto, .shaH, .length .sha224], .direct), ([.libcrypto, .evpH, .evp .sha224], .evp)] -- .h:57, 62
  | .sha256, .layout => [([.libcrypto, .shaH, .length .sha256], .direct), ([.libcrypto, .evpH, .evp .sha256], .evp)] -- .h:57, 62
  | .sha512, .layout => [([.libcrypto, .shaH, .length .sha512], .direct), ([.libcrypto, .evpH, .evp .sha512], .evp)] -- .h:57, 62
  | .md5, .«initialize» => [([.libcrypto, .md5H, .length .md5], .direct), ([.libcrypto, .evpH, .evp .md5], .evp)] -- .c:488, 502
  | .sha1, .«initialize» => [([.libcrypto, .shaH, .length .sha1], .direct), ([.libcrypto, .evpH, .evp .sha1], .evp)] -- .c:561, 575
  | .sha224, .«initialize» => [([.libcrypto, .shaH, .length .sha224], .direct), ([.libcrypto, .evpH, .evp .sha224], .evp)] -- .c:520, 534
  | .sha256, .«initialize» => [([.libcrypto, .shaH, .length .sha256], .direct), ([.libcrypto, .evpH, .evp .sha256], .evp)] -- .c:520, 534
  | .sha512, .«initialize» => [([.libcrypto, .shaH, .length .sha512], .direct), ([.libcrypto, .evpH, .evp .sha512], .evp)] -- .c:556, 570
  | .md5, .free => [([.libcrypto, .md5H, .length .md5], .direct), ([.libcrypto, .evpH, .evp .md5], .evp)] -- .c:615, 619
  | .sha1, .free => [([.libcrypto, .shaH, .length .sha1], .direct), ([.libcrypto, .evpH, .evp .sha1], .evp)] -- .c:688, 692
  | .sha224, .free => [([.libcrypto, .shaH, .length .sha224], .direct), ([.libcrypto, .evpH, .evp .sha224], .evp)] -- .c:647, 651
  | .sha256, .free => [([.libcrypto, .shaH, .length .sha256], .direct), ([.libcrypto, .evpH, .evp .sha256], .evp)] -- .c:647, 651
  | .sha512, .free => [([.libcrypto, .shaH, .length .sha512], .direct), ([.libcrypto, .evpH, .evp .sha512], .evp)] -- .c:683, 687
  | .md5, .update => [([.libcrypto, .md5H, .length .md5], .direct), ([.libcrypto, .evpH, .evp .md5], .evp)] -- .c:653, 730
  | .sha1, .update => [([.libcrypto, .shaH, .length .sha1], .direct), ([.libcrypto, .evpH, .evp .sha1], .evp)] -- .c:726, 803
  | .sha224, .update => [([.libcrypto, .shaH, .length .sha224], .direct), ([.libcrypto, .evpH, .evp .sha224], .evp)] -- .c:685, 762
  | .sha256, .update => [([.libcrypto, .shaH, .length .sha256], .direct), ([.libcrypto, .evpH, .evp .sha256], .evp)] -- .c:685, 762
  | .sha512, .update => [([.libcrypto, .shaH, .length .sha512], .direct), ([.libcrypto, .evpH, .evp .sha512], .evp)] -- .c:721, 798
  | .md5, .finalize => [([.libcrypto, .md5H, .length .md5], .direct), ([.libcrypto, .evpH, .evp .md5], .evp)] -- .c:976, 1052
  | .sha1, .finalize => [([.libcrypto, .shaH, .length .sha1], .direct), ([.libcrypto, .evpH, .evp .sha1], .evp)] -- .c:1049, 1125
  | .sha224, .finalize => [([.libcrypto, .shaH, .length .sha224], .direct), ([.libcrypto, .evpH, .evp .sha224], .evp)] -- .c:1008, 1084
  | .sha256, .finalize => [([.libcrypto, .shaH, .length .sha256], .direct), ([.libcrypto, .evpH, .evp .sha256], .evp)] -- .c:1008, 1084
  | .sha512, .finalize => [([.libcrypto, .shaH, .length .sha512], .direct), ([.libcrypto, .evpH, .evp .sha512], .evp)] -- .c:1044, 1120

/-- The places with `#if` alone: the member `internal_evp_md_context`, the variable `evp_md_type`, EVP_MD_CTX_init instead of EVP_MD_CTX_new, EVP_DigestInit_ex2 instead of EVP_DigestInit_ex, EVP_MD_CTX_cleanup instead of
EVP_MD_CTX_free after a failure, and the same in the free function. (libhmac/libhmac_md5_context.h:65; libhmac/libhmac_md5_context.c:431, 503, 527, 546, 620 and the like.) -/
inductive Switch where
  | member | evpVariable | inits | ex2 | undoes | cleans
  deriving DecidableEq

/-- The conditions; each with its lines in the files of its algorithm. (libhmac/libhmac_md5_context.h:28-88, libhmac/libhmac_md5_context.c:27-1052 and the like.) -/
def tests : Kind → Switch → List Macro
  | .md5, .member => [.ctxInit] -- .h:65
  | .sha1, .member => [.ctxInit] -- .h:65
  | .sha224, .member => [.ctxInit] -- .h:65
  | .sha256, .member => [.ctxInit] -- .h:65
  | .sha512, .member => [.ctxInit] -- .h:65
  | .md5, .evpVariable => [.libcrypto, .evpH, .evp .md5] -- .c:431
  | .sha1, .evpVariable => [.libcrypto, .evpH, .evp .sha1] -- .c:504
  | .sha224, .evpVariable => [.libcrypto, .evpH, .evp .sha224] -- .c:463
  | .sha256, .evpVariable => [.libcrypto, .evpH, .evp .sha256] -- .c:463
  | .sha512, .evpVariable => [.libcrypto, .evpH, .evp .sha512] -- .c:499
  | .md5, .inits => [.ctxInit] -- .c:503
  | .sha1, .inits => [.ctxInit] -- .c:576
  | .sha224, .inits => [.ctxInit] -- .c:535
  | .sha256, .inits => [.ctxInit] -- .c:535
  | .sha512, .inits => [.ctxInit] -- .c:571
  | .md5, .ex2 => [.initEx2] -- .c:527
  | .sha1, .ex2 => [.initEx2] -- .c:600
  | .sha224, .ex2 => [.initEx2] -- .c:559
  | .sha256, .ex2 => [.initEx2] -- .c:559
  | .sha512, .ex2 => [.initEx2] -- .c:595
  | .md5, .undoes => [.ctxCleanup] -- .c:546
  | .sha1, .undoes => [.ctxCleanup] -- .c:619
  | .sha224, .undoes => [.ctxCleanup] -- .c:578
  | .sha256, .undoes => [.ctxCleanup] -- .c:578
  | .sha512, .undoes => [.ctxCleanup] -- .c:614
  | .md5, .cleans => [.ctxCleanup] -- .c:620
  | .sha1, .cleans => [.ctxCleanup] -- .c:693
  | .sha224, .cleans => [.ctxCleanup] -- .c:652
  | .sha256, .cleans => [.ctxCleanup] -- .c:652
  | .sha512, .cleans => [.ctxCleanup] -- .c:688

/-- `#if defined( A ) && defined( B )`. (A directive of C, as in libhmac/libhmac_md5_context.h:28-88, libhmac/libhmac_md5_context.c:27-1052 and the like.) -/
def holds (cfg : Config) (g : List Macro) : Bool := g.all cfg

/-- `#if ... #elif ... #else`. (A directive of C, as in libhmac/libhmac_md5_context.h:28-88, libhmac/libhmac_md5_context.c:27-1052 and the like.) -/
def pick (cfg : Config) : List (List Macro × Branch) → Branch
  | [] => .other
  | (g, b) :: t => if holds cfg g then b else pick cfg t

/-- What is compiled at a place. (libhmac/libhmac_md5_context.h:28-88, libhmac/libhmac_md5_context.c:27-1052 and the like.) -/
def compiled (cfg : Config) (k : Kind) (p : Place) : Branch := pick cfg (guards k p)

/-- Is the code of a switch compiled? (libhmac/libhmac_md5_context.h:28-88, libhmac/libhmac_md5_context.c:27-1052 and the like.) -/
def switched (cfg : Config) (k : Kind) (w : Switch) : Bool := holds cfg (tests k w)

/-- Are the built-in functions compiled (`#if !defined( LIBHMAC_HAVE_MD5_SUPPORT )`, libhmac/libhmac_md5_context.h:91, libhmac/libhmac_md5_context.c:41; .h:91 and .c:40 for the others)? -/
def transforms (cfg : Config) (k : Kind) : Bool := compiled cfg k .support = .other

/-- The functions of the crypto library that the compiled code of an algorithm calls: in the initialise function (for example libhmac/libhmac_sha256_context.c:521-586), the free function (653-669), the update function (745, 815) and the
finalise function (1068, 1137). -/
def calls (cfg : Config) (k : Kind) : List Fn :=
  (match compiled cfg k .«initialize» with
    | .direct => [.init k]
    | .evp => (if switched cfg k .inits then [.ctxInit] else [.ctxNew]) ++ [.evp k, if switched cfg k .ex2 then .digestInitEx2 else .digestInitEx] ++
        (if switched cfg k .undoes then [.ctxCleanup, .removeThreadState] else [.ctxFree])
    | .other => []) ++
  (match compiled cfg k .free with
    | .evp => if switched cfg k .cleans then [.ctxCleanup, .removeThreadState] else [.ctxFree]
    | _ => []) ++
  (match compiled cfg k .update with
    | .direct => [.update k]
    | .evp => [.digestUpdate]
    | .other => []) ++
  (match compiled cfg k .finalize with
    | .direct => [.final k]
    | .evp => [.digestFinalEx]
    | .other => [])

end Model.Configure

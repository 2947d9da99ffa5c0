import Verif.Proofs.Changing
import Verif.Props.Hmacsum
/-! C71: a file that changes while it is read. -/

namespace Props

open Model Spec

/-! ### Pieces of a file -/

/-- Every byte of the pieces of a changing file was in the file at its position when it was read, and bytes further on were not read earlier. -/
theorem pieces_file (view : Nat → List Byte) (most : Nat → Option Nat) (b n pos left : Nat) (ds : List (List Byte)) (h : Pieces (fileSource view most) b n pos left ds) :
    ∃ time : Nat → Nat, Monotone time ∧ (∀ i, n ≤ time i) ∧ ∀ i < ds.flatten.length, ds.flatten[i]? = (view (time i))[pos + i]? := by
  induction h with
  | done n pos left => exact ⟨fun _ => n, monotone_const, fun _ => Nat.le_refl _, fun i hi => by simp at hi⟩
  | more n pos left d ds e hne h ih =>
    obtain ⟨time, hm, hn, hv⟩ := ih
    refine ⟨fun i => if i < d.length then n else time (i - d.length), fun i j hij => ?_, fun i => ?_, fun i hi => ?_⟩
    · dsimp only
      split
      · split
        · exact Nat.le_refl _
        · exact Nat.le_of_succ_le (hn _)
      · rw [if_neg (by omega)]
        exact hm (by omega)
    · dsimp only
      split
      · exact Nat.le_refl _
      · exact Nat.le_of_succ_le (hn _)
    · dsimp only
      rw [List.flatten_cons]
      split
      · rename_i hi'
        rw [List.getElem?_append_left hi']
        simp only [fileSource, Option.map_map] at e
        obtain ⟨c, -, hd⟩ := Option.map_eq_some_iff.mp e
        simp only [Function.comp_apply] at hd
        rw [← hd, List.length_take, List.length_take] at hi'
        rw [← hd, List.getElem?_take_of_lt (by omega), List.getElem?_take_of_lt (by omega), List.getElem?_drop]
      · rename_i hi'
        rw [List.getElem?_append_right (by omega), hv (i - d.length) (by rw [List.flatten_cons, List.length_append] at hi; omega), Nat.add_assoc, Nat.add_sub_cancel' (by omega)]

/-! ### C71, the sum handle -/

/-- C71. Whatever a source delivers, `sum_handle_process_input` ends without undefined behaviour, with 1 or -1. -/
theorem C71_total (T : Tool) (hT : T.Ok) (h : Handle) (W : World) (hr : Reached T h W) (S : Source) (size : Option Nat) (aborted : Nat → Bool) :
    ∃ r h' W', processSource T S size aborted h W = .ok (r, h', W') ∧ (r = 1 ∨ r = -1) ∧ W'.blocks = W.blocks := by
  obtain ⟨base, blk, ⟨⟨b, hrel⟩, hstr, -, -⟩, -⟩ := hr.inv hT
  rw [processSource_eq]
  obtain ⟨r, ctx', str', ab', pos', rc', W2, b', e2, hb, -, h1, -⟩ := processInput_ok hT (frozen S h.bufferSize h.readCount h.position size) aborted h W b hrel hstr
  exact ⟨r, _, W2, e2, h1, hb⟩

/-- C71. When processing reports success and no abort was signalled, all enabled digests are digests of one and the same sequence of `size` bytes: what the reads delivered, one after the other, each made where the one before it ended. -/
theorem C71_one_sequence (T : Tool) (hT : T.Ok) (h : Handle) (W : World) (hr : Reached T h W) (S : Source) (size : Option Nat) (aborted : Nat → Bool) (h' : Handle) (W' : World)
    (e : processSource T S size aborted h W = .ok (1, h', W')) (ha : h'.abort = false) :
    ∃ n ds, size = some n ∧ Pieces S h.bufferSize h.readCount h.position n ds ∧ ds.flatten.length = n ∧
      ∀ k, h.calculate k = true → k.LengthOk n → ∃ p, h'.hashString k = some (p, hex (k.std.digest ds.flatten) ++ [0]) := by
  rw [processSource_eq] at e
  cases size with
  | none =>
    unfold processInput at e
    split at e <;> cases e
  | some n =>
    obtain ⟨hlen, -, hk⟩ := C36_digest T hT h W hr (frozen S h.bufferSize h.readCount h.position (some n)) aborted n rfl h' W' e ha
    have hc : (frozen S h.bufferSize h.readCount h.position (some n)).content = List.replicate h.position 0 ++ bytesOf (delivered S h.bufferSize n h.readCount h.position n) := rfl
    have hle := delivered_length S h.bufferSize n h.readCount h.position n
    obtain ⟨ds, h1, h2⟩ := delivered_pieces S h.bufferSize n h.readCount h.position n
    have hn : (bytesOf (delivered S h.bufferSize n h.readCount h.position n)).length = n := by
      rw [hc, List.length_append, List.length_replicate] at hlen
      split at hlen <;> omega
    refine ⟨n, ds, rfl, h1, by rw [h2, hn], fun k hcalc hl => ?_⟩
    have := hk k
    rw [if_pos hcalc, hc, List.drop_left' List.length_replicate, List.take_of_length_le (Nat.le_of_eq hn), ← h2] at this
    exact this hl

/-- C71. Processing does succeed if the buffer size is not zero, the handle holds no contexts from earlier processing, allocations succeed, and every read before the end delivers something. -/
theorem C71_success (T : Tool) (hT : T.Ok) (h : Handle) (W : World) (hr : Reached T h W) (S : Source) (size : Nat) (aborted : Nat → Bool) (hb : 0 < h.bufferSize)
    (hctx : ∀ k, h.calculate k = true → h.context k = none) (hal : ∀ n, T.alloc n = true) (hS : ∀ n pos m, pos < h.position + size → 0 < m → ∃ d, S n pos m = some d ∧ d ≠ []) :
    ∃ h' W', processSource T S (some size) aborted h W = .ok (1, h', W') := by
  rw [processSource_eq]
  obtain ⟨h1, h2⟩ := delivered_all S h.bufferSize hb (h.position + size) hS size h.readCount h.position size (Nat.le_refl _) (Nat.le_refl _)
  refine C36_success T hT h W hr _ aborted size rfl hb hctx hal ?_ fun i => ?_
  · show h.position + size ≤ (List.replicate h.position 0 ++ bytesOf (delivered S h.bufferSize size h.readCount h.position size)).length
    rw [List.length_append, List.length_replicate, h1]
  · simp only [frozen, Option.getD_some]
    split
    · exact ⟨1, rfl, Nat.one_pos⟩
    · rename_i x hx
      obtain ⟨d, rfl, hd⟩ := h2 x (List.mem_of_getElem? hx)
      exact ⟨d.length, rfl, List.length_pos_of_ne_nil hd⟩

/-! ### C71, the program -/

theorem hmacsumChanging_run {E : Environment} (hE : EnvOk E) (sources : List Nat → Option (Source × Option Nat)) {args : List (List Nat)} {o : Options} {source : List Nat}
    (h : parseOptions E.mc args ((args.map List.length).sum + 1) ⟨none, none, false⟩ optInit = .ok (.run o source)) (W : World) :
    hmacsumChanging E sources args W = runChanging E sources o source [.version] W := by
  simp [hmacsumChanging, hE.locale, hE.output, h]

/-- On a well-formed command line the program does with a changing file what it does with a fixed one. -/
theorem as_fixed (E : Environment) (hE : EnvOk E) (sources : List Nat → Option (Source × Option Nat)) (program : List Nat) (groups : List OptGroup) (source : List Nat) (rest : List (List Nat))
    (hl : SourceLine groups source) (W : World) :
    ∃ most, (BufferArgument E.dp (lastArgument 112 (optionsOf groups)) → 0 < most) ∧
      hmacsumChanging E sources (commandLine program groups (source :: rest)) W = hmacsum (E.withFile sources most) (commandLine program groups (source :: rest)) W := by
  have hp := parse_source E.mc program groups source rest hl
  obtain ⟨most, hm, h⟩ := runChanging_eq E sources ⟨lastArgument 100 (optionsOf groups), lastArgument 112 (optionsOf groups), (optionsOf groups).any (·.1 = 118)⟩ source [.version] W
  refine ⟨most, fun hbuf => hm fun s hs h => ?_, ?_⟩
  · obtain ⟨c, ds, sp, f, up, u, hdp, hc, rfl, hf, hv0, hv⟩ := hbuf s hs
    rw [hdp, C45_value_partial _ c hc ds sp f hf up u h hv]
    by_cases hle : decimal ds * u.base ^ f.1 ≤ ssizeMax
    · exact ⟨1, decimal ds * u.base ^ f.1, by rw [if_pos hle], .inr ⟨rfl, hv0⟩⟩
    · exact ⟨0, h.bufferSize, by rw [if_neg hle], .inl rfl⟩
  · rw [hmacsumChanging_run hE sources hp, h]
    exact (hmacsum_run (E := E.withFile sources most) ⟨hE.tool, hE.dp, hE.locale, hE.output⟩ hp W).symm

theorem withFile_ok {E : Environment} (hE : EnvOk E) (sources : List Nat → Option (Source × Option Nat)) (most : Nat) : EnvOk (E.withFile sources most) := ⟨hE.tool, hE.dp, hE.locale, hE.output⟩

/-- What a file that was hashed must have been. -/
theorem withFile_pieces {E : Environment} {sources : List Nat → Option (Source × Option Nat)} {most : Nat} {source : List Nat} {inp : Input} {size : Nat}
    (h1 : (E.withFile sources most).files source = some inp) (h2 : inp.size = some size) (h3 : size ≤ inp.content.length) :
    ∃ S ds, sources source = some (S, some size) ∧ Pieces S most 0 0 size ds ∧ ds.flatten.length = size ∧ inp.content.take size = ds.flatten := by
  obtain ⟨⟨S, size'⟩, hs, rfl⟩ := Option.map_eq_some_iff.mp h1
  obtain rfl : size' = some size := h2
  obtain ⟨ds, hp, hd⟩ := delivered_pieces S most size 0 0 size
  have hc : (frozen S most 0 0 (some size)).content = bytesOf (delivered S most size 0 0 size) := rfl
  have hle := delivered_length S most size 0 0 size
  rw [hc] at h3
  refine ⟨S, ds, hs, hp, by rw [hd]; omega, ?_⟩
  show ((frozen S most 0 0 (some size)).content).take size = _
  rw [hc, hd, List.take_of_length_le hle]

/-- C71. On a well-formed command line, exit status 0 means: the digests printed are digests of one and the same sequence of bytes, of the size reported for the source, namely of what the reads delivered one after the other. -/
theorem C71_hmacsum (E : Environment) (hE : EnvOk E) (sources : List Nat → Option (Source × Option Nat)) (program : List Nat) (groups : List OptGroup) (source : List Nat) (rest : List (List Nat))
    (hl : SourceLine groups source) (W : World) :
    ∃ x W', hmacsumChanging E sources (commandLine program groups (source :: rest)) W = .ok (x, W') ∧ (x.status = true →
      ∃ lines S size most ds, x.out = .version :: lines ∧ lines ≠ [] ∧ sources source = some (S, some size) ∧ Pieces S most 0 0 size ds ∧ ds.flatten.length = size ∧
        ((∀ k, Selected (lastArgument 100 (optionsOf groups)) k → k.LengthOk size) → DigestLines (lastArgument 100 (optionsOf groups)) ds.flatten lines)) := by
  obtain ⟨most, -, he⟩ := as_fixed E hE sources program groups source rest hl W
  rw [he]
  obtain ⟨x, W', e, hx⟩ := C50_success (E.withFile sources most) (withFile_ok hE sources most) program groups source rest hl W
  refine ⟨x, W', e, fun hs => ?_⟩
  obtain ⟨lines, inp, size, h1, h2, h3, h4, h5, h6⟩ := hx hs
  obtain ⟨S, ds, g1, g2, g3, g4⟩ := withFile_pieces h3 h4 h5
  rw [g4] at h6
  exact ⟨lines, S, size, most, ds, h1, h2, g1, g2, g3, h6⟩

/-- C71. Whatever the exit status: all digest lines are digests of one and the same sequence that the reads delivered. -/
theorem C71_no_mixture (E : Environment) (hE : EnvOk E) (sources : List Nat → Option (Source × Option Nat)) (program : List Nat) (groups : List OptGroup) (source : List Nat) (rest : List (List Nat))
    (hl : SourceLine groups source) (W : World) (x : Exit) (W' : World) (e : hmacsumChanging E sources (commandLine program groups (source :: rest)) W = .ok (x, W')) :
    (∀ k text, Line.digest k text ∉ x.out) ∨ ∃ S size most ds, sources source = some (S, some size) ∧ Pieces S most 0 0 size ds ∧ ds.flatten.length = size ∧
      ((∀ k, Selected (lastArgument 100 (optionsOf groups)) k → k.LengthOk size) →
        ∀ k text, Line.digest k text ∈ x.out → Selected (lastArgument 100 (optionsOf groups)) k ∧ text = hex (k.std.digest ds.flatten)) := by
  obtain ⟨most, -, he⟩ := as_fixed E hE sources program groups source rest hl W
  rw [he] at e
  by_cases hd : ∀ k text, Line.digest k text ∉ x.out
  · exact .inl hd
  · right
    push Not at hd
    obtain ⟨k, text, hk⟩ := hd
    obtain ⟨inp, size, h3, h4, h5, -⟩ := C50_no_wrong_digest (E.withFile sources most) (withFile_ok hE sources most) program groups source rest hl W x W' e k text hk
    obtain ⟨S, ds, g1, g2, g3, g4⟩ := withFile_pieces h3 h4 h5
    refine ⟨S, size, most, ds, g1, g2, g3, fun hlen k text hk => ?_⟩
    obtain ⟨inp', size', h3', h4', -, h6⟩ := C50_no_wrong_digest (E.withFile sources most) (withFile_ok hE sources most) program groups source rest hl W x W' e k text hk
    rw [h3] at h3'
    cases h3'
    rw [h4] at h4'
    cases h4'
    rw [g4] at h6
    exact h6 hlen

/-- C71. For a file with content `view n` at the n-th read: the bytes that were hashed were in the file, each at its position, at moments that did not go back. -/
theorem C71_file (E : Environment) (hE : EnvOk E) (sources : List Nat → Option (Source × Option Nat)) (program : List Nat) (groups : List OptGroup) (source : List Nat) (rest : List (List Nat))
    (hl : SourceLine groups source) (W : World) (view : Nat → List Byte) (most : Nat → Option Nat) (size : Nat) (hs : sources source = some (fileSource view most, some size))
    (hlen : ∀ k, Selected (lastArgument 100 (optionsOf groups)) k → k.LengthOk size) :
    ∃ x W', hmacsumChanging E sources (commandLine program groups (source :: rest)) W = .ok (x, W') ∧ (x.status = true →
      ∃ lines data time, x.out = .version :: lines ∧ data.length = size ∧ Monotone time ∧ (∀ i < size, data[i]? = (view (time i))[i]?) ∧ DigestLines (lastArgument 100 (optionsOf groups)) data lines) := by
  obtain ⟨x, W', e, hx⟩ := C71_hmacsum E hE sources program groups source rest hl W
  refine ⟨x, W', e, fun hst => ?_⟩
  obtain ⟨lines, S, size', b, ds, h1, -, h2, h3, h4, h5⟩ := hx hst
  rw [hs] at h2
  cases h2
  obtain ⟨time, hm, -, hv⟩ := pieces_file view most b 0 0 size ds h3
  refine ⟨lines, ds.flatten, time, h1, h4, hm, fun i hi => ?_, h5 hlen⟩
  have := hv i (by omega)
  rwa [Nat.zero_add] at this

/-- C71. A file that only grows after its size was determined (a log): what is printed are the digests of the content that it had at that moment. -/
theorem C71_append_only (E : Environment) (hE : EnvOk E) (sources : List Nat → Option (Source × Option Nat)) (program : List Nat) (groups : List OptGroup) (source : List Nat) (rest : List (List Nat))
    (hl : SourceLine groups source) (W : World) (content : List Byte) (view : Nat → List Byte) (hview : ∀ n, content <+: view n) (most : Nat → Option Nat)
    (hs : sources source = some (fileSource view most, some content.length)) (hlen : ∀ k, Selected (lastArgument 100 (optionsOf groups)) k → k.LengthOk content.length) :
    ∃ x W', hmacsumChanging E sources (commandLine program groups (source :: rest)) W = .ok (x, W') ∧ (x.status = true →
      ∃ lines, x.out = .version :: lines ∧ DigestLines (lastArgument 100 (optionsOf groups)) content lines) := by
  obtain ⟨x, W', e, hx⟩ := C71_file E hE sources program groups source rest hl W view most content.length hs hlen
  refine ⟨x, W', e, fun hst => ?_⟩
  obtain ⟨lines, data, time, h1, h2, -, h3, h4⟩ := hx hst
  have : data = content := by
    refine List.ext_getElem? fun i => ?_
    by_cases hi : i < content.length
    · obtain ⟨t, ht⟩ := hview (time i)
      rw [h3 i hi, ← ht, List.getElem?_append_left hi]
    · rw [List.getElem?_eq_none (by omega), List.getElem?_eq_none (by omega)]
  rw [this] at h4
  exact ⟨lines, h1, h4⟩

/-- C71. A file that is cut after its size was determined and stays shorter: no digest is printed, and the exit status is failure. -/
theorem C71_truncated (E : Environment) (hE : EnvOk E) (sources : List Nat → Option (Source × Option Nat)) (program : List Nat) (groups : List OptGroup) (source : List Nat) (rest : List (List Nat))
    (hl : SourceLine groups source) (W : World) (view : Nat → List Byte) (most : Nat → Option Nat) (size : Nat) (hs : sources source = some (fileSource view most, some size))
    (hcut : ∀ n, (view n).length < size) :
    ∃ x W', hmacsumChanging E sources (commandLine program groups (source :: rest)) W = .ok (x, W') ∧ x.status = false ∧ ∀ k text, Line.digest k text ∉ x.out := by
  have key : ∀ b ds, Pieces (fileSource view most) b 0 0 size ds → ds.flatten.length = size → False := fun b ds hp hlen => by
    obtain ⟨time, -, -, hv⟩ := pieces_file view most b 0 0 size ds hp
    have h0 := hcut 0
    have := hv (size - 1) (by omega)
    have h1 := hcut (time (size - 1))
    rw [List.getElem?_eq_none (l := view _) (by omega), List.getElem?_eq_none_iff] at this
    omega
  obtain ⟨x, W', e, hx⟩ := C71_hmacsum E hE sources program groups source rest hl W
  refine ⟨x, W', e, ?_, ?_⟩
  · by_contra hst
    obtain ⟨lines, S, size', b, ds, -, -, h2, h3, h4, -⟩ := hx (by simpa using hst)
    rw [hs] at h2
    cases h2
    exact key b ds h3 h4
  · rcases C71_no_mixture E hE sources program groups source rest hl W x W' e with h | ⟨S, size', b, ds, h2, h3, h4, -⟩
    · exact h
    · rw [hs] at h2
      cases h2
      exact (key b ds h3 h4).elim

/-- C71. The program does succeed and print the digests of what the reads delivered if the command line is well-formed, the source can be opened and every read before the end delivers something, allocations and library calls succeed and no
signal arrives. -/
theorem C71_completes (E : Environment) (hE : EnvOk E) (sources : List Nat → Option (Source × Option Nat)) (program : List Nat) (groups : List OptGroup) (source : List Nat) (rest : List (List Nat))
    (hl : SourceLine groups source) (W : World) (S : Source) (size : Nat) (hs : sources source = some (S, some size)) (hS : ∀ n pos m, pos < size → 0 < m → ∃ d, S n pos m = some d ∧ d ≠ [])
    (halloc : ∀ n, E.tool.alloc n = true) (hcalls : E.closeOk = true ∧ E.freeOk = true ∧ E.splitOk = true ∧ E.splitFreeOk = true) (harr : E.arrival = .never)
    (hbuf : BufferArgument E.dp (lastArgument 112 (optionsOf groups))) (hlen : ∀ k, Selected (lastArgument 100 (optionsOf groups)) k → k.LengthOk size) :
    ∃ lines most ds W', hmacsumChanging E sources (commandLine program groups (source :: rest)) W = .ok (⟨true, .version :: lines⟩, W') ∧ Pieces S most 0 0 size ds ∧ ds.flatten.length = size ∧
      DigestLines (lastArgument 100 (optionsOf groups)) ds.flatten lines := by
  obtain ⟨most, hm, he⟩ := as_fixed E hE sources program groups source rest hl W
  rw [he]
  obtain ⟨h1, h2⟩ := delivered_all S most (hm hbuf) size hS size 0 0 size (Nat.le_refl _) (by omega)
  have hfile : (E.withFile sources most).files source = some (frozen S most 0 0 (some size)) := by
    simp [Environment.withFile, hs]
  have hc : (frozen S most 0 0 (some size)).content = bytesOf (delivered S most size 0 0 size) := rfl
  obtain ⟨lines, W', e, hd⟩ := C50_completes (E.withFile sources most) (withFile_ok hE sources most) program groups source rest hl W _ hfile (by rw [hc, h1]; rfl) (fun i => by
      simp only [frozen, Option.getD_some]
      split
      · exact ⟨1, rfl, Nat.one_pos⟩
      · rename_i x hx
        obtain ⟨d, rfl, hd⟩ := h2 x (List.mem_of_getElem? hx)
        exact ⟨d.length, rfl, List.length_pos_of_ne_nil hd⟩) halloc hcalls harr hbuf (by rw [hc, h1]; exact hlen)
  obtain ⟨ds, hp, hds⟩ := delivered_pieces S most size 0 0 size
  refine ⟨lines, most, ds, W', e, hp, by rw [hds, h1], ?_⟩
  rw [hc] at hd
  rwa [hds]

/-- C71. On any command line whatever (also -h, -V, invalid options and a missing source, and if the locale or the output cannot be set up) the program does with changing sources exactly what it does with fixed ones: those that hold what the
reads deliver. -/
theorem C71_any_command_line (E : Environment) (sources : List Nat → Option (Source × Option Nat)) (args : List (List Nat)) (W : World) :
    ∃ files : List Nat → Option Input, hmacsumChanging E sources args W = hmacsum { E with files := files } args W ∧
      ∀ source, (files source).map (·.size) = (sources source).map (·.2) ∧
        ∀ inp S size, files source = some inp → sources source = some (S, some size) → ∃ most ds, Pieces S most 0 0 size ds ∧ inp.content = ds.flatten := by
  have hfiles : ∀ most source, ((E.withFile sources most).files source).map (·.size) = (sources source).map (·.2) ∧
        ∀ inp S size, (E.withFile sources most).files source = some inp → sources source = some (S, some size) → ∃ most ds, Pieces S most 0 0 size ds ∧ inp.content = ds.flatten := fun most source => by
    refine ⟨by simp [Environment.withFile, frozen, Function.comp_def], fun inp S size h1 h2 => ?_⟩
    simp only [Environment.withFile, h2, Option.map_some, Option.some.injEq] at h1
    obtain ⟨ds, hp, hd⟩ := delivered_pieces S most size 0 0 size
    exact ⟨most, ds, hp, by rw [hd, ← h1]; rfl⟩
  by_cases hloc : E.localeOk
  · by_cases hout : E.outputOk
    · cases hp : parseOptions E.mc args ((args.map List.length).sum + 1) ⟨none, none, false⟩ optInit with
      | ok q =>
        cases q with
        | run o source =>
          obtain ⟨most, -, h⟩ := runChanging_eq E sources o source [.version] W
          refine ⟨(E.withFile sources most).files, ?_, hfiles most⟩
          simp [hmacsumChanging, hmacsum, hloc, hout, hp, h, Environment.withFile]
        | help | version | missing | invalid =>
          refine ⟨(E.withFile sources 0).files, ?_, hfiles 0⟩
          simp only [hmacsumChanging, hmacsum, hloc, hout, hp, Res.ok_bind]
          rfl
      | ub => exact ⟨(E.withFile sources 0).files, by simp only [hmacsumChanging, hmacsum, hloc, hout, hp]; rfl, hfiles 0⟩
      | diverge => exact ⟨(E.withFile sources 0).files, by simp only [hmacsumChanging, hmacsum, hloc, hout, hp]; rfl, hfiles 0⟩
    · exact ⟨(E.withFile sources 0).files, by simp only [hmacsumChanging, hmacsum, hloc, hout]; rfl, hfiles 0⟩
  · exact ⟨(E.withFile sources 0).files, by simp only [hmacsumChanging, hmacsum, hloc]; rfl, hfiles 0⟩

/-! ### Cases -/

/-- A file of 100000 bytes that is overwritten while it is read, of which a read delivers at most 1000 bytes. -/
def overwritten : Source := fileSource (fun n => if n < 40 then List.replicate 100000 0x61 else List.replicate 100000 0x62) fun _ => some 1000

theorem overwritten_delivers (n pos m : Nat) (h : pos < 100000) (hm : 0 < m) : ∃ d, overwritten n pos m = some d ∧ d ≠ [] := by
  refine ⟨_, rfl, ?_⟩
  rw [Ne, List.take_eq_nil_iff, List.drop_eq_nil_iff]
  rintro (h | h)
  · omega
  · dsimp only at h
    split at h <;> rw [List.length_replicate] at h <;> omega

def sources1 : List Nat → Option (Source × Option Nat) := fun name => if name = codes "file" then some (overwritten, some 100000) else none

example := C71_total tool0 tool0_ok handle0 world1 handle0_reached overwritten (some 100000) (fun n => decide (n ≥ 7))

theorem overwritten_success : ∃ h' W', processSource tool0 overwritten (some 100000) (fun _ => false) handle0 world1 = .ok (1, h', W') :=
  C71_success tool0 tool0_ok handle0 world1 handle0_reached overwritten 100000 _ (by decide) (fun _ _ => rfl) (fun _ => rfl) fun n pos m h hm =>
    overwritten_delivers n pos m (by rwa [show handle0.position + 100000 = 100000 from Nat.zero_add _] at h) hm

example : ∃ h' W' n ds, processSource tool0 overwritten (some 100000) (fun _ => false) handle0 world1 = .ok (1, h', W') ∧ some 100000 = some n ∧ Pieces overwritten 32768 0 0 n ds ∧ ds.flatten.length = n := by
  obtain ⟨h', W', e⟩ := overwritten_success
  have ha : h'.abort = false := by
    obtain ⟨base, blk, ⟨⟨b, hrel⟩, hstr, -, -⟩, -⟩ := handle0_reached.inv tool0_ok
    have e' := e
    rw [processSource_eq] at e'
    obtain ⟨r, ctx', str', ab', pos', rc', W2, b', e2, -, -, -, -, -, -, -, habt, -⟩ := processInput_ok tool0_ok (frozen overwritten 32768 0 0 (some 100000)) (fun _ => false) handle0 world1 b hrel hstr
    rw [show processInput tool0 (frozen overwritten 32768 0 0 (some 100000)) (fun _ => false) handle0 world1 = .ok (1, h', W') from e'] at e2
    cases e2
    cases ab' with
    | false => rfl
    | true => rcases habt rfl with h | ⟨n, -, -, h⟩ <;> cases h
  obtain ⟨n, ds, h1, h2, h3, -⟩ := C71_one_sequence tool0 tool0_ok handle0 world1 handle0_reached overwritten (some 100000) (fun _ => false) h' W' e ha
  exact ⟨h', W', n, ds, e, h1, h2, h3⟩

/-- C71. For a file that does not change the program is that of C50. -/
theorem C71_fixed (E : Environment) (hE : EnvOk E) (program : List Nat) (groups : List OptGroup) (source : List Nat) (rest : List (List Nat)) (hl : SourceLine groups source) (W : World) :
    hmacsumChanging E (fun name => (E.files name).map fun inp => (fileSource (fun _ => inp.content) inp.reads, inp.size)) (commandLine program groups (source :: rest)) W =
      hmacsum E (commandLine program groups (source :: rest)) W := by
  have hp := parse_source E.mc program groups source rest hl
  rw [hmacsumChanging_run hE _ hp, hmacsum_run hE hp]
  unfold runChanging runSource
  have : ∀ h W, openSource E (fun name => (E.files name).map fun inp => (fileSource (fun _ => inp.content) inp.reads, inp.size)) source [.version] h W = openAndProcess E source [.version] h W := fun h W => by
    unfold openSource openAndProcess
    dsimp only
    cases E.files source with
    | none => rfl
    | some inp =>
      simp only [Option.map_some]
      unfold sourceAndPrint processAndPrint
      rw [processSource_fixed]
  simp only [this]
  rfl

example := C71_any_command_line env1 sources1 (commandLine (codes "hmacsum") groups0 [codes "file"]) world0

example := C71_fixed env1 env1_ok (codes "hmacsum") groups0 (codes "file") [] line1 world0

example := C71_hmacsum env1 env1_ok sources1 (codes "hmacsum") groups0 (codes "file") [] line1 world0

theorem buffer1 : BufferArgument (some 46) (lastArgument 112 (optionsOf groups0)) := fun s hs => ⟨46, [1], false, 2, true, .none, rfl, by decide, by
  rw [show lastArgument 112 (optionsOf groups0) = some (codes "1M") by decide] at hs
  cases hs
  decide, by decide, by decide, by decide⟩

/-- Also the file that is overwritten gets its digests. -/
example := C71_completes env1 env1_ok sources1 (codes "hmacsum") groups0 (codes "file") [] line1 world0 overwritten 100000 (by simp [sources1]) overwritten_delivers (fun _ => rfl) ⟨rfl, rfl, rfl, rfl⟩ rfl buffer1
  (fun k _ => by cases k <;> decide)

/-- A log of 3 bytes to which something is appended before every read. -/
example := C71_append_only env1 env1_ok (fun _ => some (fileSource (fun n => [1, 2, 3] ++ List.replicate n 4) fun _ => some 2, some 3)) (codes "hmacsum") groups0 (codes "file") [] line1 world0 [1, 2, 3] _
  (fun n => ⟨List.replicate n 4, rfl⟩) (fun _ => some 2) rfl (fun k _ => by cases k <;> decide)

/-- A file of which 3 bytes were reported and 2 are left. -/
example := C71_truncated env1 env1_ok (fun _ => some (fileSource (fun _ => [1, 2]) fun _ => some 2, some 3)) (codes "hmacsum") groups0 (codes "file") [] line1 world0 _ _ 3 rfl (fun _ => by decide)

/-- A file with the content "ab" at the first read and "cd" afterwards; a read delivers one byte. -/
def exchanged (n : Nat) : List Byte := if n = 0 then [0x61, 0x62] else [0x63, 0x64]

theorem exchanged_delivers (n pos m : Nat) (h : pos < 2) (hm : 0 < m) : ∃ d, fileSource exchanged (fun _ => some 1) n pos m = some d ∧ d ≠ [] := by
  refine ⟨_, rfl, ?_⟩
  rw [Ne, List.take_eq_nil_iff, List.drop_eq_nil_iff]
  rintro (h | h)
  · omega
  · unfold exchanged at h
    split at h <;> simp at h <;> omega

theorem exchanged_pieces (most : Nat) (ds : List (List Byte)) (h : Pieces (fileSource exchanged fun _ => some 1) most 0 0 2 ds) (hl : ds.flatten.length = 2) : ds.flatten = [0x61, 0x64] := by
  have one : ∀ n pos left d, ((fileSource exchanged fun _ => some 1) n pos (min most left)).map (List.take (min most left)) = some d → d ≠ [] → d = ((exchanged n).drop pos).take 1 := fun n pos left d e hne => by
    simp only [fileSource, Option.map_some, Option.some.injEq] at e
    subst e
    have h0 : min most left ≠ 0 := fun h0 => hne (by rw [h0]; rfl)
    rw [List.take_take, show min (min most left) (min 1 (min most left)) = 1 by omega]
  cases h with
  | done => simp at hl
  | more _ _ _ d ds e hne h =>
    have hd := one 0 0 2 d e hne
    rw [show ((exchanged 0).drop 0).take 1 = [0x61] from rfl] at hd
    subst hd
    cases h with
    | done => simp at hl
    | more _ _ _ d ds e hne h =>
      have hd := one 1 1 1 d e hne
      rw [show ((exchanged 1).drop 1).take 1 = [0x64] from rfl] at hd
      subst hd
      simp only [List.flatten_cons, List.cons_append, List.nil_append, List.length_cons] at hl ⊢
      rw [List.eq_nil_of_length_eq_zero (by omega : ds.flatten.length = 0)]

/-- C71. No more can be said: a file that is overwritten while it is read can get, with exit status 0, the digests of something that was never its content ("ad" of a file that is "ab" at first and "cd" later). -/
theorem C71_torn : ∃ lines W', hmacsumChanging env1 (fun _ => some (fileSource exchanged fun _ => some 1, some 2)) (commandLine (codes "hmacsum") groups0 [codes "file"]) world0 = .ok (⟨true, .version :: lines⟩, W') ∧
    DigestLines (some (codes "sha1")) [0x61, 0x64] lines ∧ ∀ n, exchanged n ≠ [0x61, 0x64] := by
  obtain ⟨lines, most, ds, W', e, hp, hl, hd⟩ := C71_completes env1 env1_ok (fun _ => some (fileSource exchanged fun _ => some 1, some 2)) (codes "hmacsum") groups0 (codes "file") [] line1 world0 _ 2 rfl exchanged_delivers
    (fun _ => rfl) ⟨rfl, rfl, rfl, rfl⟩ rfl buffer1 (fun k _ => by cases k <;> decide)
  rw [exchanged_pieces most ds hp hl] at hd
  refine ⟨lines, W', e, hd, fun n => ?_⟩
  unfold exchanged
  split <;> decide

/-- C71_file: the file that is overwritten while it is read. -/
example := C71_file env1 env1_ok sources1 (codes "hmacsum") groups0 (codes "file") [] line1 world0 _ _ 100000 (if_pos rfl) (fun k _ => by cases k <;> decide)

/-- C71_no_mixture: the same file. -/
example (x : Exit) (W' : World) (e : hmacsumChanging env1 sources1 (commandLine (codes "hmacsum") groups0 [codes "file"]) world0 = .ok (x, W')) :=
  C71_no_mixture env1 env1_ok sources1 (codes "hmacsum") groups0 (codes "file") [] line1 world0 x W' e

end Props

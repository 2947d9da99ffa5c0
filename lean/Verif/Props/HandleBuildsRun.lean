import Verif.Proofs.HandleBuildsRun
import Verif.Props.HandleBuilds
/-! C90: histories of a sum handle in every build of the tool and on hosts of every width. -/

namespace Props

open Model Spec

variable {ch : Kind → Choice} {L : Kind → Library} {hb : Nat}

theorem Correct.handleLaw (h : Correct ch L) (h1 : 17 ≤ hb) (h2 : hb ≤ 64) {T : Tool} (hT : T.Ok) (m : MixedMem L) :
    ∃ Rep : (k : Kind) → (L k).State → List Byte → Prop, Builds.Law (Contexts.mixedHost hb ch L T) T (∀ k, ch k ≠ .builtin → Reliable (L k)) (2 ^ 32 - 1)
      (Builds.MixedRel ch L Rep (fun w => (m.mem.live w).map (·.1)) m.live) :=
  h.hostLaw (E := { bigEnv with tool := T }) h1 h2 hT _ (fun _ B _ => limit_small B) m

/-- C90. Every sequence of calls that does not print runs without undefined behaviour and ends, in every build and on every host, whatever calls of the crypto libraries, of the allocator and of the file fail. -/
theorem C90_no_ub (hL : Correct ch L) (h1 : 17 ≤ hb) (h2 : hb ≤ 64) (T : Tool) (hT : T.Ok) (ops : List HandleOp) (hv : ∀ op ∈ ops, op.Valid) (hp : HandleOp.print ∉ ops) (W : WorldOf (MixedMem L)) :
    ∃ rs slot' W', Builds.handleRun T (.mixedHost hb ch L T) ops none W = .ok (rs, slot', W') ∧ rs.length = ops.length := by
  obtain ⟨Rep, law⟩ := hL.handleLaw h1 h2 hT W.mem
  obtain ⟨⟨rs, slot', W'⟩, e⟩ := Builds.handleRun_total hT law ops W.blocks none W (fun op ho => ⟨hv op ho, fun hpr => absurd (hpr ▸ ho) hp⟩) (builds_start W) (fun _ hh => by cases hh)
  obtain ⟨-, -, -, h3, -⟩ := Builds.handleRun_inv hT law ops W.blocks none W hv (builds_start W) (fun _ hh => by cases hh) rs slot' W' e
  exact ⟨rs, slot', W', e, h3⟩

/-- C90. If processing reports success after any history of calls, each selected digest is the standard digest of the bytes that this processing read: all of them up to the size of the file, unless the handle was asked to stop. -/
theorem C90_digest (hL : Correct ch L) (h1 : 17 ≤ hb) (h2 : hb ≤ 64) (T : Tool) (hT : T.Ok) (ops : List HandleOp) (hv : ∀ op ∈ ops, op.Valid) (W0 : WorldOf (MixedMem L)) (rs : List Int) (h : Handle)
    (W : WorldOf (MixedMem L)) (e0 : Builds.handleRun T (.mixedHost hb ch L T) ops none W0 = .ok (rs, some h, W)) (inp : Input) (stop : Nat → Bool) (h' : Handle) (W' : WorldOf (MixedMem L))
    (e : Builds.handleStep T (.mixedHost hb ch L T) (.process inp stop) (some h) W = .ok (1, some h', W')) :
    ∃ size d, inp.size = some size ∧ d <+: inp.content.drop h.position ∧ (d.length = size ∨ h'.abort = true) ∧ h'.calculate = h.calculate ∧
      (d.length < 2 ^ 61 → (∀ k, h.calculate k = true → ∃ p, h'.hashString k = some (p, hex (k.std.digest d) ++ [0])) ∧
        printHashes digestOrder h' = .ok ((printOrder.filter h.calculate).map fun k => (k, hex (k.std.digest d)))) := by
  obtain ⟨Rep, law⟩ := hL.handleLaw h1 h2 hT W0.mem
  obtain ⟨extra, hI, -⟩ := Builds.handleRun_inv hT law ops W0.blocks none W0 hv (builds_start W0) (fun _ hh => by cases hh) rs (some h) W e0
  obtain ⟨r, ctx', str', ab', pos', rc', W2, e2, -, -, hsuc, -⟩ := Builds.processInput_ok hT law inp stop _ h W hI
  simp only [Builds.handleStep, e2, Res.ok_bind, Res.pure_eq] at e
  cases e
  obtain ⟨size, d, g1, g2, g3, g4⟩ := hsuc rfl
  refine ⟨size, d, g1, g2, g3, rfl, fun hl => ?_⟩
  have hs : ∀ k, h.calculate k = true → ∃ p, str' k = some (p, hex (k.std.digest d) ++ [0]) := fun k hk => by
    obtain ⟨p, o, k1, k2⟩ := g4 k hk
    exact ⟨p, k2 hl ▸ k1⟩
  refine ⟨hs, ?_⟩
  rw [printHashes_ok _ (fun k hk => by obtain ⟨p, hp⟩ := hs k hk; exact ⟨p, _, hp, by simp⟩) digestOrder]
  refine congrArg Res.ok ?_
  refine List.map_congr_left fun k hk => ?_
  obtain ⟨p, hp⟩ := hs k (List.mem_filter.mp hk).2
  refine Prod.ext rfl ?_
  show Handle.text _ k = _
  simp only [Handle.text, hp, Option.map_some, Option.getD_some]
  rw [takeWhile_hex]

/-- C90. Processing does succeed after any history that left a buffer size and no contexts, if nothing fails; with more than 4 GiB only if the buffer is smaller than that. -/
theorem C90_completes (hL : Correct ch L) (h1 : 17 ≤ hb) (h2 : hb ≤ 64) (hrel : ∀ k, ch k ≠ .builtin → Reliable (L k)) (T : Tool) (hT : T.Ok) (ops : List HandleOp) (hv : ∀ op ∈ ops, op.Valid) (W0 : WorldOf (MixedMem L)) (rs : List Int)
    (h : Handle) (W : WorldOf (MixedMem L)) (e0 : Builds.handleRun T (.mixedHost hb ch L T) ops none W0 = .ok (rs, some h, W)) (inp : Input) (stop : Nat → Bool) (size : Nat) (hs : inp.size = some size)
    (hbuf : 0 < h.bufferSize) (hlim : h.bufferSize ≤ 2 ^ 32 - 1 ∨ size ≤ 2 ^ 32 - 1) (hctx : ∀ k, h.context k = none) (hal : ∀ n, T.alloc n = true) (hsz : h.position + size ≤ inp.content.length)
    (hreads : ∀ i, ∃ c, inp.reads i = some c ∧ 0 < c) :
    ∃ h' W', Builds.handleStep T (.mixedHost hb ch L T) (.process inp stop) (some h) W = .ok (1, some h', W') := by
  obtain ⟨Rep, law⟩ := hL.handleLaw h1 h2 hT W0.mem
  obtain ⟨extra, hI, hz, -⟩ := Builds.handleRun_inv hT law ops W0.blocks none W0 hv (builds_start W0) (fun _ hh => by cases hh) rs (some h) W e0
  obtain ⟨r, ctx', str', ab', pos', rc', W2, e2, -, -, -, hprog⟩ := Builds.processInput_ok hT law inp stop _ h W hI
  have hr := hprog size hs hbuf (hz h rfl) hlim hctx hal hrel hsz hreads
  subst hr
  exact ⟨{ h with context := ctx', hashString := str', abort := ab', position := pos', readCount := rc' }, W2, by simp only [Builds.handleStep, e2, Res.ok_bind, Res.pure_eq]⟩

/-- C90. Freeing the handle after any history gives back all contexts, the objects of the crypto libraries and all blocks, except at most one for each failed initialise call, and none if no allocation failed. -/
theorem C90_released (hL : Correct ch L) (h1 : 17 ≤ hb) (h2 : hb ≤ 64) (T : Tool) (hT : T.Ok) (ops : List HandleOp) (hv : ∀ op ∈ ops, op.Valid) (c : Bool) (W : WorldOf (MixedMem L)) (rs : List Int) (slot : Option Handle)
    (W1 : WorldOf (MixedMem L)) (e : Builds.handleRun T (.mixedHost hb ch L T) ops none W = .ok (rs, slot, W1)) :
    ∃ r W' leaked, Builds.handleRun T (.mixedHost hb ch L T) (ops ++ [.free c]) none W = .ok (rs ++ [r], none, W') ∧ r = (if c = true ∨ slot = none then 1 else -1) ∧
      (∀ w, ((W'.mem.mem.live w).map (·.1)).Perm ((W.mem.mem.live w).map (·.1))) ∧ (∀ k, W'.mem.live k = W.mem.live k) ∧ W'.blocks.Perm (leaked ++ W.blocks) ∧
      leaked.length ≤ failedInits ops rs ∧ ((∀ n, T.alloc n = true) → leaked = []) := by
  obtain ⟨Rep, law⟩ := hL.handleLaw h1 h2 hT W.mem
  obtain ⟨extra, hI, -, -, h4, h5⟩ := Builds.handleRun_inv hT law ops W.blocks none W hv (builds_start W) (fun _ hh => by cases hh) rs slot W1 e
  obtain ⟨W2, e2, hN⟩ := Builds.sumFree_ok law c (extra ++ W.blocks) slot W1 hI
  obtain ⟨hm1, hm2⟩ := Builds.mixed_end hN.1
  refine ⟨if c || slot.isNone then 1 else -1, W2, extra, ?_, ?_, hm1, hm2, hN.2, h4, fun hal => ?_⟩
  · rw [Builds.handleRun_append, e]
    simp only [Res.ok_bind, Builds.handleRun, Builds.handleStep, e2, Res.pure_eq]
  · cases c <;> cases slot <;> simp
  · by_contra hne
    obtain ⟨n, hn⟩ := h5 hne
    rw [hal n] at hn
    cases hn

/-! ### Examples -/

/-- The memory after initialise. -/
def mixed1 (L : Kind → Library) : WorldOf (MixedMem L) := ⟨⟨world1.mem, 0, fun _ => []⟩, world1.blocks⟩

theorem handle_started (hb : Nat) (ch : Kind → Choice) (L : Kind → Library) : Builds.handleRun tool0 (.mixedHost hb ch L tool0) [.init, .open true, .abort, .init] none (mixed0 L) =
    .ok ([1, 1, 1, -1], some { handle0 with abort := true }, mixed1 L) := rfl

theorem handle_new (hb : Nat) (ch : Kind → Choice) (L : Kind → Library) : Builds.handleRun tool0 (.mixedHost hb ch L tool0) [.init, .open true] none (mixed0 L) = .ok ([1, 1], some handle0, mixed1 L) := rfl

/-- Histories with misuse, with libraries whose calls fail and with an allocation that fails, on a 32-bit host. -/
example : ∃ rs slot W1, Builds.handleRun tool1 (.mixedHost 32 choice0 failingLibrary tool1) (ops0.filter (! · matches .print)) none (mixed0 _) = .ok (rs, slot, W1) ∧
    ∃ r W' leaked, Builds.handleRun tool1 (.mixedHost 32 choice0 failingLibrary tool1) (ops0.filter (! · matches .print) ++ [.free true]) none (mixed0 _) = .ok (rs ++ [r], none, W') ∧ W'.blocks.Perm (leaked ++ world0.blocks) := by
  have hv : ∀ op ∈ ops0.filter (! · matches .print), op.Valid := fun op hop => ops0_ok op (List.mem_filter.mp hop).1
  obtain ⟨rs, slot, W1, e, -⟩ := C90_no_ub failing_correct (hb := 32) (by decide) (by decide) tool1 tool1_ok _ hv (by simp [ops0]) (mixed0 _)
  obtain ⟨r, W', leaked, e', -, -, -, h, -⟩ := C90_released failing_correct (by decide) (by decide) tool1 tool1_ok _ hv true (mixed0 _) rs slot W1 e
  exact ⟨rs, slot, W1, e, r, W', leaked, e', h⟩

theorem handle_completes (h1 : 17 ≤ hb) (h2 : hb ≤ 64) (inp : Input) (hs : inp.size = some inp.content.length) (hreads : ∀ i, ∃ c, inp.reads i = some c ∧ 0 < c) :
    ∃ h' W', Builds.handleStep tool0 (.mixedHost hb (fun _ => .crypto .evpAllocated) exactLibrary tool0) (.process inp fun _ => false) (some handle0) (mixed1 _) = .ok (1, some h', W') ∧
      (inp.content.length < 2 ^ 61 → h'.abort = false → ∃ p, h'.hashString .md5 = some (p, hex (Kind.md5.std.digest inp.content) ++ [0])) := by
  have hv : ∀ op ∈ [HandleOp.init, .open true], op.Valid := by simp [HandleOp.Valid]
  obtain ⟨h', W', e⟩ := C90_completes (exact_right fun _ => .crypto .evpAllocated) h1 h2 (fun k _ => exact_reliable k) tool0 tool0_ok _ hv (mixed0 _) _ handle0 (mixed1 _) (handle_new _ _ _) inp (fun _ => false) _ hs
    (by decide) (.inl (by decide)) (fun _ => rfl) (fun _ => rfl) (Nat.le_of_eq (Nat.zero_add _)) hreads
  obtain ⟨size, d, hsz, hd, hall, -, hk⟩ := C90_digest (exact_right fun _ => .crypto .evpAllocated) h1 h2 tool0 tool0_ok _ hv (mixed0 _) _ handle0 (mixed1 _) (handle_new _ _ _) inp (fun _ => false) h' W' e
  refine ⟨h', W', e, fun hl ha => ?_⟩
  rw [hs] at hsz
  cases hsz
  have hd : d <+: inp.content := hd
  have hlen := hall.resolve_right (by simp [ha])
  obtain rfl := hd.eq_of_length hlen
  exact (hk hl).1 .md5 rfl

/-- A file of more than 4 GiB, on a 32-bit host, with a crypto library. -/
example : ∃ h' W', Builds.handleStep tool0 (.mixedHost 32 (fun _ => .crypto .evpAllocated) exactLibrary tool0) (.process bigInput fun _ => false) (some handle0) (mixed1 _) = .ok (1, some h', W') := by
  have hlen : bigInput.content.length = 2 ^ 32 + 5 := List.length_replicate
  obtain ⟨h', W', e, -⟩ := handle_completes (hb := 32) (by decide) (by decide) bigInput (by rw [hlen]; rfl) (fun _ => ⟨100000, rfl, by decide⟩)
  exact ⟨h', W', e⟩

/-- After a request to stop, on a 32-bit host with libraries whose calls fail. -/
example (inp : Input) : ∃ r h2 W2, Builds.handleStep tool0 (.mixedHost 32 choice0 failingLibrary tool0) (.process inp fun _ => false) (some { handle0 with abort := true }) (mixed1 _) = .ok (r, some h2, W2) ∧ h2.readCount ≤ 1 := by
  obtain ⟨rs, slot, W1, e, -⟩ := C90_no_ub failing_correct (hb := 32) (by decide) (by decide) tool0 tool0_ok ([.init, .open true, .abort, .init] ++ [.process inp fun _ => false]) (by simp [HandleOp.Valid]) (by simp) (mixed0 _)
  rw [Builds.handleRun_append, handle_started] at e
  simp only [Res.ok_bind, Builds.handleRun] at e
  obtain ⟨⟨rs', q', V'⟩, e1, -⟩ := Res.bind_eq_ok e
  obtain ⟨⟨r, q, V⟩, e2, -⟩ := Res.bind_eq_ok e1
  obtain ⟨h', h2, hh, rfl, h3, -⟩ := C89_build_stopping 32 choice0 failingLibrary tool0 [.init] (by simp) handle0 (mixed1 _) [1, -1] _ _ rfl inp (fun _ => false) r q V e2
  cases hh
  exact ⟨r, h2, V, e2, h3⟩

example (verbose : Bool) (string : List Nat) (r : Int) (slot : Option Handle) (W : WorldOf (MixedMem failingLibrary))
    (e : Builds.handleStep tool0 (.mixedHost 32 choice0 failingLibrary tool0) (.bufferSize verbose (some 46) string) (some handle0) (mixed1 _) = .ok (r, slot, W)) : r = 1 ∨ r = 0 ∨ r = -1 :=
  (C89_build_call 32 choice0 failingLibrary tool0 _ _ _ r slot W e).1

end Props

import Verif.Model.HostPrograms
import Verif.Spec.HostPrograms
import Verif.Proofs.HostBackend
import Verif.Proofs.MultiBuilds
import Verif.Proofs.PyBuilds
/-! Programs in every build on hosts of other widths: what they do on a 64-bit host, with sizes above the limits replaced. -/

namespace Model

open Spec (Kind ApiCall Reply PyArg PyExc PyResult PyOp PyMessages)

variable {hb : Nat} {ch : Kind → Choice} {L : Kind → Library}

/-- A call of a built-in context, wherever it is in the heap. -/
theorem hostStep_var {w : Nat} {A : Alg w} {H : Spec.IterHash w} {enc : Nat → List Byte} (h1 : 16 ≤ hb) (h2 : hb ≤ 64) (LL : Lawful A H enc) (u : Bool) (env : Env w) (call : ApiCall) (scr : Scr w) (slot : Option Nat) (s : St w)
    (b : Option (List (BitVec w) × List Byte)) (hv : (clipCall hb call).Valid) (hscr : ScrOk A scr) (hrel : VarRel A H slot s b) :
    hostStep hb A u env call scr slot s = step A u env (clipCall hb call) scr slot s := by
  obtain ⟨p1, p2, p3⟩ := hostPow h1 h2
  have hsm : hostMax hb ≤ Spec.maxSize := by unfold Spec.maxSize; omega
  cases call with
  | init => rfl
  | initNull => rfl
  | free => rfl
  | freeNull => rfl
  | update o n =>
    simp only [hostStep, step, clipCall]
    cases slot with
    | none => rfl
    | some p =>
      cases b with
      | none => exact hrel.elim
      | some x =>
        obtain ⟨-, hh0, c, hl, hr⟩ := hrel
        by_cases hn : n ≤ hostMax hb
        · simp only [clipCall, clip_le hn] at hv ⊢
          rw [hostHUpdate_eq h1 h2 LL hh0 u _ hscr s p c hl hr o n hn (by rintro b rfl; exact hv (by omega))]
        · rw [clip_gt hn, hostHUpdate_big h1 h2 A u _ s p c hl o o n (by omega)]
  | finalize o n =>
    simp only [hostStep, step, clipCall]
    cases slot with
    | none => rfl
    | some p =>
      cases b with
      | none => exact hrel.elim
      | some x =>
        obtain ⟨-, hh0, c, hl, hr⟩ := hrel
        by_cases hn : n ≤ hostMax hb
        · rw [clip_le hn, hostHFinalize_eq h1 h2 LL hh0 u _ hscr s p c hl hr o n hn]
        · have hh := LL.hashLe
          have hB : A.blockSize ≤ 128 := by rcases LL.size with h | h <;> omega
          rw [clip_gt hn]
          have e : hostHFinalize hb A u { env with scr := scr } (some p) o n s = hFinalize A u { env with scr := scr } (some p) o (2 ^ 63) s := by
            unfold hostHFinalize hFinalize
            simp only [hl]
            cases o with
            | none => rfl
            | some y => simp [hostFinalize, ctxFinalize, show hostMax hb < n by omega, show ¬ n < A.hashSize by omega, show ¬ 2 ^ 63 < A.hashSize by omega, ssizeMax]
          rw [e]

/-- A call as the 64-bit model of the build sees it. -/
def chClip (hb : Nat) : Choice → ApiCall → ApiCall
  | .builtin, c => clipCall hb c
  | .crypto B, c => bClipCall hb B c

variable {kinds : Nat → Kind} {base : (k : Kind) → List (Nat × BObj (L k).State)} {Rep : (k : Kind) → (L k).State → List Byte → Prop} {mbase : Nat → List Nat}

/-- The relation of a built-in variable. -/
theorem MixMulti.var {slots : Nat → Option Nat} {m : MixedMem L} {acc : Nat → Option (List Byte)} (h : MixMulti ch L Rep kinds mbase base slots m acc) (i : Nat) (hk : ch (kinds i) = .builtin) :
    ∃ b, VarRel (algOf (kinds i)) (kinds i).len64 (slots i) (m.mem.view (kinds i).width) b := by
  obtain ⟨⟨a, hrel, -⟩, -⟩ := h
  have := hrel.1 i
  rw [show builtinSlots ch kinds slots i = slots i by simp [builtinSlots, hk]] at this
  exact ⟨_, this⟩

/-- A call on one of many variables. -/
theorem mixedHost_step (h1 : 16 ≤ hb) (h2 : hb ≤ 64) {T : Tool} (hT : ∀ k n, Kind.Junk k (T.scr k n)) (i : Nat) (c : ApiCall) (n : Nat) (hv : (chClip hb (ch (kinds i)) c).Valid) {slots : Nat → Option Nat} {m : MixedMem L}
    {acc : Nat → Option (List Byte)} (h : MixMulti ch L Rep kinds mbase base slots m acc) :
    (Contexts.mixedHost hb ch L T).call (kinds i) c n (slots i) m = (Contexts.mixed ch L T).call (kinds i) (chClip hb (ch (kinds i)) c) n (slots i) m := by
  cases hk : ch (kinds i) with
  | builtin =>
    obtain ⟨b, hb'⟩ := h.var i hk
    obtain ⟨enc, LL⟩ := lawful (kinds i)
    rw [hk] at hv
    simp only [Contexts.mixedHost, Contexts.mixed, Contexts.host, Contexts.builtin, hk, chClip, hostStep_var h1 h2 LL _ _ c _ _ _ b hv (scrOk_of_junk (hT _ _)) hb']
  | crypto B => simp only [Contexts.mixedHost, Contexts.mixed, hk, chClip, hostBStep_eq h1 h2]

/-- The calls of a program as the 64-bit model of the build sees them. -/
def clipCalls (hb : Nat) (ch : Kind → Choice) (kinds : Nat → Kind) (calls : List (Nat × ApiCall)) : List (Nat × ApiCall) := calls.map fun x => (x.1, chClip hb (ch (kinds x.1)) x.2)

theorem multi_host (h1 : 16 ≤ hb) (h2 : hb ≤ 64) (hL : ∀ k, ch k ≠ .builtin → Contract (L k) k (Rep k)) (htame : ∀ k, ch k ≠ .builtin → Tame (L k) k.hashSize) {T : Tool} (hT : ∀ k n, Kind.Junk k (T.scr k n)) :
    ∀ (calls : List (Nat × ApiCall)) (n : Nat) (slots : Nat → Option Nat) (m : MixedMem L) (acc : Nat → Option (List Byte)), (∀ c ∈ clipCalls hb ch kinds calls, c.2.Valid) → MixMulti ch L Rep kinds mbase base slots m acc →
      Builds.multi (.mixedHost hb ch L T) kinds n calls slots m = Builds.multi (.mixed ch L T) kinds n (clipCalls hb ch kinds calls) slots m
  | [], _, _, _, _, _, _ => rfl
  | (i, c) :: cs, n, slots, m, acc, hv, h => by
    have hv0 : (chClip hb (ch (kinds i)) c).Valid := hv (i, chClip hb (ch (kinds i)) c) (by simp [clipCalls])
    obtain ⟨r, slot', m1, e, -, h1', hf⟩ := mixed_step hL htame i (chClip hb (ch (kinds i)) c) n (hT _ _) hv0 h
    have ih := multi_host h1 h2 hL htame hT cs (n + 1) _ m1 _ (fun c hc => hv c (by simp only [clipCalls, List.map_cons, List.mem_cons]; exact .inr hc)) h1'
    have e' := (mixedHost_step h1 h2 hT i c n hv0 h).trans e
    show ((Contexts.mixedHost hb ch L T).call (kinds i) c n (slots i) m >>= _) = ((Contexts.mixed ch L T).call (kinds i) (chClip hb (ch (kinds i)) c) n (slots i) m >>= _)
    rw [e', e]
    simp only [Res.ok_bind]
    rw [ih]
    rfl

/-! ### Sizes that every host takes -/

/-- The 64-bit functions do not depend on how refused sizes are written. -/
theorem hostMaxUpdate_64 (B : Backend) : hostMaxUpdate 64 B = B.maxUpdate := by rcases B with (_ | _) | _ | _ <;> decide

theorem hostMaxOutput_64 (B : Backend) : hostMaxOutput 64 B = B.maxOutput := by rcases B with (_ | _) | _ | _ <;> decide

theorem clip_small (B : Backend) {size : Nat} (h1 : 16 ≤ hb) (h2 : hb ≤ 64) (h : size ≤ hostMax hb) : clipTo (hostMaxUpdate hb B) size = clipTo B.maxUpdate size := by
  have hm := (hostMaxUpdate_le h1 h2 B).2
  by_cases hB : size ≤ hostMaxUpdate hb B
  · rw [clipTo_le hB, clipTo_le (Nat.le_trans hB hm)]
  · have hB' : B = .direct true := by
      rcases B with (_ | _) | _ | _ <;> simp only [hostMaxUpdate] at hB <;> first | rfl | exact absurd h hB
    subst hB'
    rfl

theorem clip_digest (B : Backend) (h1 : 16 ≤ hb) (h2 : hb ≤ 64) (k : Kind) : clipTo (hostMaxOutput hb B) k.hashSize = k.hashSize := by
  have := (hostMaxOutput_le h1 h2 B).1
  exact clipTo_le (by have := calculate_len k; omega)

variable {Lb : Library}

theorem hostBUpdate_64 (B : Backend) (slot : Option Nat) (buf : Option (List Byte)) (size : Nat) (s : BSt Lb.State) : hostBUpdate 64 B Lb slot buf size s = bUpdate B Lb slot buf size s := by
  cases slot with
  | none => rfl
  | some p =>
    cases buf with
    | none => rfl
    | some b => simp only [hostBUpdate, bUpdate, hostMaxUpdate_64]

theorem hostBFinalize_64 (B : Backend) (n : Nat) (slot : Option Nat) (out : Option (List Byte)) (size : Nat) (s : BSt Lb.State) : hostBFinalize 64 B Lb n slot out size s = bFinalize B Lb n slot out size s := by
  cases slot with
  | none => rfl
  | some p =>
    cases out with
    | none => rfl
    | some b => simp only [hostBFinalize, bFinalize, hostMaxOutput_64]

theorem hostBStep_64 (B : Backend) (n : Nat) (allocOk : Nat → Bool) (c : ApiCall) (slot : Option Nat) (s : BSt Lb.State) : hostBStep 64 B Lb n allocOk c slot s = bStep B Lb n allocOk c slot s := by
  cases c <;> simp only [hostBStep, bStep, hostBUpdate_64, hostBFinalize_64]

theorem hostOCalculate_64 (B : Backend) (n : Nat) (env : OEnv) (buffer : Option Nat) (size : Nat) (hash : Option Nat) (hashSize : Nat) (s : OSt Lb.State) :
    hostOCalculate 64 B Lb n env buffer size hash hashSize s = oCalculate B Lb n env buffer size hash hashSize s := by
  simp only [hostOCalculate, oCalculate, hostOUpdate, oUpdate, hostOFinalize, oFinalize, hostBUpdate_64, hostBFinalize_64]

theorem hostOCalculateHmac_64 (B : Backend) (n blockSize : Nat) (env : OEnv) (kh : List Byte) (key : Option Nat) (keySize : Nat) (buffer : Option Nat) (size : Nat) (hmac : Option Nat) (hmacSize : Nat) (s : OSt Lb.State) :
    hostOCalculateHmac 64 B Lb n blockSize env kh key keySize buffer size hmac hmacSize s = oCalculateHmac B Lb n blockSize env kh key keySize buffer size hmac hmacSize s := by
  have hs : ∀ a b, hostSub 64 a b = szSub a b := fun a b => rfl
  cases key with
  | none => rfl
  | some k =>
    simp only [hostOCalculateHmac, oCalculateHmac, hostOKey, oKey, hostOPass, oPass, hostOUpdate, oUpdate, hostOFinalize, oFinalize, hostBUpdate_64, hostBFinalize_64, hs]
    rfl

theorem hostBStep_small (h1 : 16 ≤ hb) (h2 : hb ≤ 64) (B : Backend) (k : Kind) (allocOk : Nat → Bool) (c : ApiCall) (slot : Option Nat) (s : BSt Lb.State) (hu : ∀ o n, c = .update o n → n ≤ hostMax hb) (hf : ∀ o n, c = .finalize o n → n = k.hashSize) :
    hostBStep hb B Lb k.hashSize allocOk c slot s = bStep B Lb k.hashSize allocOk c slot s := by
  rw [hostBStep_eq h1 h2, ← hostBStep_64 (c := c), hostBStep_eq (by decide) (by decide)]
  cases c with
  | update o n => simp only [bClipCall, clip_small B h1 h2 (hu o n rfl), hostMaxUpdate_64]
  | finalize o n => rw [hf o n rfl, bClipCall, bClipCall, clip_digest B h1 h2, clip_digest B (by decide) (by decide)]
  | _ => rfl

theorem hostOCalculate_small (h1 : 16 ≤ hb) (h2 : hb ≤ 64) (B : Backend) (k : Kind) (env : OEnv) (buffer : Option Nat) (size : Nat) (hash : Option Nat) (s : OSt Lb.State) (h : size ≤ hostMax hb) :
    hostOCalculate hb B Lb k.hashSize env buffer size hash k.hashSize s = oCalculate B Lb k.hashSize env buffer size hash k.hashSize s := by
  rw [hostOCalculate_eq h1 h2, ← hostOCalculate_64 (size := size), hostOCalculate_eq (by decide) (by decide), clip_small B h1 h2 h, hostMaxUpdate_64, clip_digest B h1 h2, clip_digest B (by decide) (by decide)]

theorem hostOCalculateHmac_small (h1 : 16 ≤ hb) (h2 : hb ≤ 64) (B : Backend) (k : Kind) (env : OEnv) (kh : List Byte) (key : Option Nat) (keySize : Nat) (buffer : Option Nat) (size : Nat) (hmac : Option Nat) (s : OSt Lb.State)
    (hk : keySize ≤ hostMax hb) (h : size ≤ hostMax hb) : hostOCalculateHmac hb B Lb k.hashSize k.blockSize env kh key keySize buffer size hmac k.hashSize s =
      oCalculateHmac B Lb k.hashSize k.blockSize env kh key keySize buffer size hmac k.hashSize s := by
  obtain ⟨p1, p2, p3⟩ := hostPow h1 h2
  have hb1 : k.blockSize ≤ 128 := by cases k <;> decide
  have h64 : keySize ≤ hostMax 64 := Nat.le_trans hk (by unfold hostMax at *; omega)
  rw [hostOCalculateHmac_eq h1 h2 B _ _ (calculate_len k) hb1, ← hostOCalculateHmac_64 (size := size), hostOCalculateHmac_eq (by decide) (by decide) B _ _ (calculate_len k) hb1, clip_small B h1 h2 h, hostMaxUpdate_64, clip_digest B h1 h2,
    clip_digest B (by decide) (by decide), clipTo_le hk, clipTo_le h64]

/-! ### The Python module -/

variable {u : Kind → Bool} {al : Nat → Bool}

/-- A call that the module makes. -/
theorem pyHost_call (h1 : 16 ≤ hb) (h2 : hb ≤ 64) {e : PyEnv} (he : e.Ok) (i : Nat) (c : ApiCall) {slots : Nat → Option Nat} {m : MixedMem L} {acc : Nat → Option (List Byte)} (h : MixMulti ch L Rep kinds mbase base slots m acc)
    (hu : ∀ o n, c = .update o n → n ≤ hostMax hb ∧ ∀ b, o = some b → n ≤ b.length) (hf : ∀ o n, c = .finalize o n → n = (kinds i).hashSize ∧ ∀ b, o = some b → n ≤ b.length) :
    (PyLibrary.mixedHost hb ch L u al).call e (kinds i) c (slots i) m = (PyLibrary.mixed ch L u al).call e (kinds i) c (slots i) m := by
  obtain ⟨p1, p2, p3⟩ := hostPow h1 h2
  have hd := calculate_len (kinds i)
  cases hk : ch (kinds i) with
  | builtin =>
    obtain ⟨b, hb'⟩ := h.var i hk
    obtain ⟨enc, LL⟩ := lawful (kinds i)
    have hc : clipCall hb c = c := by
      cases c with
      | update o n => rw [clipCall, clip_le (hu o n rfl).1]
      | finalize o n => rw [clipCall, clip_le (by rw [(hf o n rfl).1]; omega)]
      | _ => rfl
    have hv : (clipCall hb c).Valid := by
      rw [hc]
      cases c with
      | update o n => cases o with
        | none => trivial
        | some b => exact fun _ => (hu _ n rfl).2 b rfl
      | finalize o n => cases o with
        | none => trivial
        | some b => exact fun _ => (hf _ n rfl).2 b rfl
      | _ => trivial
    have := hostStep_var h1 h2 LL (u (kinds i)) { e.env (kinds i) with allocOk := al } c (e.env (kinds i)).scr _ _ b hv (scrOk_of_junk (he _).1) hb'
    rw [hc] at this
    simp only [PyLibrary.mixedHost, PyLibrary.mixed, PyLibrary.host, PyLibrary.builtin, hk, this]
  | crypto B => simp only [PyLibrary.mixedHost, PyLibrary.mixed, hk, hostBStep_small h1 h2 B (kinds i) al c _ _ (fun o n h => (hu o n h).1) (fun o n h => (hf o n h).1)]

theorem pyHost_calculate (h1 : 16 ≤ hb) (h2 : hb ≤ 64) {e : PyEnv} (he : e.Ok) (k : Kind) (b : List Byte) (h : b.length ≤ hostMax hb) (m : MixedMem L) :
    (PyLibrary.mixedHost hb ch L u al).calculate e k b m = (PyLibrary.mixed ch L u al).calculate e k b m := by
  obtain ⟨p1, p2, p3⟩ := hostPow h1 h2
  have hd := calculate_len k
  cases hk : ch k with
  | builtin =>
    obtain ⟨enc, LL⟩ := lawful k
    have := hostCalculate_eq h1 h2 LL (u k) { e.env k with allocOk := al } (scrOk_of_junk (he k).1) (some 0) b.length (some b.length) (algOf k).hashSize { m.mem.view k.width with caller := b ++ e.hash k }
      (by rw [clip_le h]; rintro _ ⟨⟩ -; simp)
    rw [clip_le h, clip_le (by rw [algOf_hashSize]; omega)] at this
    simp only [PyLibrary.mixedHost, PyLibrary.mixed, PyLibrary.host, PyLibrary.builtin, hk, this]
  | crypto B => simp only [PyLibrary.mixedHost, PyLibrary.mixed, hk, hostOCalculate_small h1 h2 B k _ _ _ _ _ h]

theorem pyHost_hmac (h1 : 16 ≤ hb) (h2 : hb ≤ 64) {e : PyEnv} (he : e.Ok) (k : Kind) (kb b : List Byte) (hkb : kb.length ≤ hostMax hb) (h : b.length ≤ hostMax hb) (m : MixedMem L) :
    (PyLibrary.mixedHost hb ch L u al).calculateHmac e k kb b m = (PyLibrary.mixed ch L u al).calculateHmac e k kb b m := by
  obtain ⟨p1, p2, p3⟩ := hostPow h1 h2
  have hd := calculate_len k
  have hl : (e.hash k).length = k.hashSize := (he k).2.1
  cases hk : ch k with
  | builtin =>
    obtain ⟨enc, LL⟩ := lawful k
    have hcs : clip hb (algOf k).hashSize = (algOf k).hashSize := clip_le (by rw [algOf_hashSize]; omega)
    have := hostCalculateHmac_eq h1 h2 LL (u k) { e.env k with allocOk := al } (scrOk_of_junk (he k).1) (e.keyHash k) (by rw [(he k).2.2, algOf_hashSize])
      (some 0) kb.length (some kb.length) b.length (some (kb.length + b.length)) (algOf k).hashSize { m.mem.view k.width with caller := kb ++ (b ++ e.hash k) }
      (by rw [clip_le hkb]; rintro _ ⟨⟩ -; simp) (by rw [clip_le h]; rintro _ ⟨⟩ -; simp) (by rw [hcs]; rintro _ ⟨⟩ -; rw [algOf_hashSize]; simp [hl]; omega)
    rw [clip_le hkb, clip_le h, hcs] at this
    simp only [PyLibrary.mixedHost, PyLibrary.mixed, PyLibrary.host, PyLibrary.builtin, hk, this]
  | crypto B => simp only [PyLibrary.mixedHost, PyLibrary.mixed, hk, hostOCalculateHmac_small h1 h2 B k _ _ _ _ _ _ _ _ hkb h]

theorem pyHost_init (e : PyEnv) (k : Kind) (slot : Option Nat) (m : MixedMem L) : (PyLibrary.mixedHost hb ch L u al).call e k .init slot m = (PyLibrary.mixed ch L u al).call e k .init slot m := by
  cases hk : ch k <;> simp only [PyLibrary.mixedHost, PyLibrary.mixed, hk] <;> rfl

theorem pyHost_free (e : PyEnv) (k : Kind) (slot : Option Nat) (m : MixedMem L) : (PyLibrary.mixedHost hb ch L u al).call e k .free slot m = (PyLibrary.mixed ch L u al).call e k .free slot m := by
  cases hk : ch k <;> simp only [PyLibrary.mixedHost, PyLibrary.mixed, hk] <;> rfl

theorem pyHost_pyInit (e : PyEnv) (k : Kind) (m : MixedMem L) : PyBuilds.init (.mixedHost hb ch L u al) e k m = PyBuilds.init (.mixed ch L u al) e k m := by
  simp only [PyBuilds.init, PyBuilds.acquire, pyHost_init]

theorem pyHost_dealloc (e : PyEnv) (k : Kind) (slot : Option Nat) (m : MixedMem L) (n : Int) : PyBuilds.dealloc (.mixedHost hb ch L u al) e k slot m n = PyBuilds.dealloc (.mixed ch L u al) e k slot m n := by
  cases slot <;> simp only [PyBuilds.dealloc, PyBuilds.free, pyHost_free]

theorem pyData_inr {arg : Option PyArg} {b : List Byte} (h : pyData arg = .inr b) : arg = some (.bytes b) := by
  rcases arg with _ | _ | _ | _ | _ <;> simp only [pyData] at h <;> first | cases h | skip
  split at h <;> cases h
  rfl

theorem pyKeyData_inr {arg : PyArg} {b : List Byte} (h : pyKeyData arg = .inr b) : arg = .bytes b := by
  cases arg <;> simp only [pyKeyData] at h <;> first | cases h | skip
  split at h <;> cases h
  rfl

/-- A statement. -/
theorem pyHost_exec (h1 : 16 ≤ hb) (h2 : hb ≤ 64) {e : PyEnv} (he : e.Ok) {st : PyState (MixedMem L)} {o : PyMessages} (hr : PyMix ch L Rep kinds mbase base st o) (op : PyOp) (hop : op.AtMost (hostMax hb)) :
    PyBuilds.exec (.mixedHost hb ch L u al) kinds e op st = PyBuilds.exec (.mixed ch L u al) kinds e op st := by
  have hm := hr.mix
  have hslot : ∀ i slot, st.vars i = some slot → (st.vars i).join = slot := fun i slot h => by rw [h]; rfl
  cases op with
  | create i ok =>
    simp only [PyBuilds.exec, PyBuilds.new]
    cases st.vars i with
    | some _ => rfl
    | none => cases ok <;> simp only [PyBuilds.create, pyHost_pyInit, pyHost_dealloc]
  | createRaw i ok => rfl
  | reinit i =>
    simp only [PyBuilds.exec, PyBuilds.on]
    cases st.vars i with
    | none => rfl
    | some slot => simp only [PyBuilds.method, pyHost_pyInit]
  | release i =>
    simp only [PyBuilds.exec, PyBuilds.on]
    cases st.vars i with
    | none => rfl
    | some slot => simp only [PyBuilds.method, pyHost_dealloc]
  | update i arg =>
    simp only [PyBuilds.exec, PyBuilds.on]
    cases hs : st.vars i with
    | none => rfl
    | some slot =>
      simp only [PyBuilds.method, PyBuilds.feed]
      cases hd : pyData arg with
      | inl x => rfl
      | inr b =>
        obtain rfl := pyData_inr hd
        have := pyHost_call (u := u) (al := al) h1 h2 he i (.update (some b) b.length) hm (by rintro _ _ ⟨⟩; exact ⟨hop, by rintro _ ⟨⟩; exact Nat.le_refl _⟩) (by rintro _ _ ⟨⟩)
        simp only [hslot i slot hs] at this
        simp only [PyBuilds.update, this]
  | finalize i ok =>
    simp only [PyBuilds.exec, PyBuilds.on]
    cases hs : st.vars i with
    | none => rfl
    | some slot =>
      have hl : (e.hash (kinds i)).length = (kinds i).hashSize := (he _).2.1
      have := pyHost_call (u := u) (al := al) h1 h2 he i (.finalize (some (e.hash (kinds i))) (kinds i).hashSize) hm (by rintro _ _ ⟨⟩) (by rintro _ _ ⟨⟩; exact ⟨rfl, by rintro _ ⟨⟩; exact Nat.le_of_eq hl.symm⟩)
      simp only [hslot i slot hs] at this
      simp only [PyBuilds.method, PyBuilds.digest, PyBuilds.finalize, this]
  | calculate k arg ok =>
    simp only [PyBuilds.exec, PyBuilds.calculate]
    cases hd : pyData arg with
    | inl x => rfl
    | inr b =>
      obtain rfl := pyData_inr hd
      simp only [pyHost_calculate h1 h2 he k b hop]
  | calculateHmac k args ok =>
    simp only [PyBuilds.exec, PyBuilds.calculateHmac]
    rcases args with _ | ⟨key, data⟩
    · rfl
    · cases hkd : pyKeyData key with
      | inl x => simp only [hkd]
      | inr kb =>
        cases hd : pyData (some data) with
        | inl x => simp only [hkd, hd]
        | inr b =>
          simp only [hkd, hd]
          obtain rfl := pyKeyData_inr hkd
          obtain rfl := Option.some.inj (pyData_inr hd)
          rw [pyHost_hmac h1 h2 he k kb b hop.1 hop.2]

/-- A program. -/
theorem pyHost_program (h1 : 16 ≤ hb) (h2 : hb ≤ 64) (hL : ∀ k, ch k ≠ .builtin → Contract (L k) k (Rep k)) (htame : ∀ k, ch k ≠ .builtin → Tame (L k) k.hashSize) :
    ∀ (prog : List (PyOp × PyEnv)) {mbase : Nat → List Nat} {base : (k : Kind) → List (Nat × BObj (L k).State)} (st : PyState (MixedMem L)) (o : PyMessages), (∀ x ∈ prog, x.2.Ok ∧ x.1.AtMost (hostMax hb)) →
      PyMix ch L Rep kinds mbase base st o → PyBuilds.program (.mixedHost hb ch L u al) kinds prog st = PyBuilds.program (.mixed ch L u al) kinds prog st
  | [], _, _, _, _, _, _ => rfl
  | (op, e) :: t, mbase, base, st, o, he, hr => by
    obtain ⟨he0, hop⟩ := he _ (List.mem_cons_self ..)
    obtain ⟨r, st1, o1, mb1, b1, h⟩ := exec_may (u := u) (al := al) hL htame he0 hr op
    have ih := pyHost_program h1 h2 hL htame t st1 o1 (fun x hx => he x (List.mem_cons_of_mem _ hx)) h.mix
    simp only [PyBuilds.program, pyHost_exec h1 h2 he0 hr op hop, h.eq, Res.ok_bind, ih]

/-! ### The fuzz targets -/

theorem hostBFuzzOne_eq (h1 : 16 ≤ hb) (h2 : hb ≤ 64) (B : Backend) (k : Kind) (env : OEnv) (hash : List Byte) (data : Option Nat) (size : Nat) (s : OSt Lb.State) :
    hostBFuzzOne hb B k Lb env hash data size s = bFuzzOne B k Lb env hash data (clipTo (hostMaxUpdate hb B) size) s := by
  simp only [hostBFuzzOne, bFuzzOne, hostOCalculate_eq h1 h2, clip_digest B h1 h2]

end Model

import Verif.Proofs.NoteTraces
/-! Domain and code of every message are those of Model/Errors, for all arguments in every state. -/

set_option linter.unusedSimpArgs false

namespace Model

open Spec (Err Note Fn ApiCall Reply)

variable {w : Nat} {A : Alg w}

theorem Res.ite_bind {α β} (c : Prop) [Decidable c] (a b : Res α) (f : α → Res β) : ((if c then a else b) >>= f) = if c then a >>= f else b >>= f := by
  split <;> rfl

theorem Res.note_congr {α β} {x : Res α} {f g : α → Res β} (h : ∀ a, f a = g a) : (x >>= f) = (x >>= g) := by
  rw [funext h]

/-- Domain and code of the messages. -/
def noteErrs (ns : List Note) : List Err := ns.map (·.err)

theorem noteErrs_append (ns : List Note) (n : Note) : noteErrs (ns ++ [n]) = noteErrs ns ++ [n.err] := by simp [noteErrs]

theorem noteErrs_failed (r : Int) (e : Note) (ns : List Note) : noteErrs (noteFailed r e ns) = failed r e.err (noteErrs ns) := by
  unfold noteFailed failed
  split
  · rw [noteErrs_append]
  · rfl

theorem Res.note_congr2 {α₁ α₂ β} {x : Res (α₁ × α₂)} {f g : α₁ × α₂ → Res β} (h : ∀ a b, f (a, b) = g (a, b)) : (x >>= f) = (x >>= g) :=
  Res.note_congr fun ⟨a, b⟩ => h a b

theorem Res.note_congr3 {α₁ α₂ α₃ β} {x : Res (α₁ × α₂ × α₃)} {f g : α₁ × α₂ × α₃ → Res β} (h : ∀ a b c, f (a, b, c) = g (a, b, c)) : (x >>= f) = (x >>= g) :=
  Res.note_congr fun ⟨a, b, c⟩ => h a b c

theorem Res.note_congr4 {α₁ α₂ α₃ α₄ β} {x : Res (α₁ × α₂ × α₃ × α₄)} {f g : α₁ × α₂ × α₃ × α₄ → Res β} (h : ∀ a b c d, f (a, b, c, d) = g (a, b, c, d)) : (x >>= f) = (x >>= g) :=
  Res.note_congr fun ⟨a, b, c, d⟩ => h a b c d

theorem Res.note_congr5 {α₁ α₂ α₃ α₄ α₅ β} {x : Res (α₁ × α₂ × α₃ × α₄ × α₅)} {f g : α₁ × α₂ × α₃ × α₄ × α₅ → Res β} (h : ∀ a b c d e, f (a, b, c, d, e) = g (a, b, c, d, e)) :
    (x >>= f) = (x >>= g) :=
  Res.note_congr fun ⟨a, b, c, d, e⟩ => h a b c d e

theorem errFailed_one (e : Err) (es : List Err) : failed 1 e es = es := rfl

theorem noteFailed_one (e : Note) (ns : List Note) : noteFailed 1 e ns = ns := rfl

/-- Compares the two functions step by step. -/
macro "note_step" "[" ls:Lean.Parser.Tactic.simpLemma,* "]" : tactic => `(tactic| repeat' (first
  | rfl
  | (rename_i h; have h' := Decidable.not_not.mp h; clear h; subst h'; simp only [errFailed_one, noteFailed_one])
  | (simp only [Res.bind_assoc, Res.ok_bind, Res.pure_eq, Res.ub_bind, Res.ite_bind, noteErrs_append, noteErrs_failed, $ls,*])
  | (refine Res.note_congr5 fun _ _ _ _ _ => ?_)
  | (refine Res.note_congr4 fun _ _ _ _ => ?_)
  | (refine Res.note_congr3 fun _ _ _ => ?_)
  | (refine Res.note_congr2 fun _ _ => ?_)
  | (refine Res.note_congr fun _ => ?_)
  | split))

theorem nTransform_err (A : Alg w) (u : Bool) (scr : Scr w) (c : Option (Ctx w)) (b : Option (List Byte)) (size : Nat) (ns : List Note) :
    eTransform A u scr c b size (noteErrs ns) = nTransform A u scr c b size ns >>= fun x => .ok (x.1, x.2.1, x.2.2.1, noteErrs x.2.2.2) := by
  unfold eTransform nTransform
  note_step []

theorem nUpdateFill_err (A : Alg w) (u : Bool) (scr : Scr w) (c : Ctx w) (b : List Byte) (size : Nat) (ns : List Note) :
    eUpdateFill A u scr c b size (noteErrs ns) = nUpdateFill A u scr c b size ns >>= fun x => .ok (x.1, x.2.1, x.2.2.1, noteErrs x.2.2.2) := by
  unfold eUpdateFill nUpdateFill
  note_step [nTransform_err]

theorem nUpdateBulk_err (A : Alg w) (u : Bool) (scr : Scr w) (c : Ctx w) (b : List Byte) (o size : Nat) (ns : List Note) :
    eUpdateBulk A u scr c b o size (noteErrs ns) = nUpdateBulk A u scr c b o size ns >>= fun x => .ok (x.1, x.2.1, x.2.2.1, x.2.2.2.1, noteErrs x.2.2.2.2) := by
  unfold eUpdateBulk nUpdateBulk
  note_step [nTransform_err]

theorem nUpdateTail_err (A : Alg w) (c : Ctx w) (b : List Byte) (o size : Nat) (ns : List Note) :
    eUpdateTail A c b o size (noteErrs ns) = nUpdateTail A c b o size ns >>= fun x => .ok (x.1, x.2.1, noteErrs x.2.2) := by
  unfold eUpdateTail nUpdateTail
  note_step []

theorem nCtxUpdate_err (A : Alg w) (u : Bool) (scr : Scr w) (c : Option (Ctx w)) (b : Option (List Byte)) (size : Nat) (ns : List Note) :
    eCtxUpdate A u scr c b size (noteErrs ns) = nCtxUpdate A u scr c b size ns >>= fun x => .ok (x.1, x.2.1, noteErrs x.2.2) := by
  unfold eCtxUpdate nCtxUpdate
  note_step [nUpdateFill_err, nUpdateBulk_err, nUpdateTail_err]

theorem nCtxFinalize_err (A : Alg w) (u : Bool) (scr : Scr w) (c : Option (Ctx w)) (o : Option (List Byte)) (size : Nat) (ns : List Note) :
    eCtxFinalize A u scr c o size (noteErrs ns) = nCtxFinalize A u scr c o size ns >>= fun x => .ok (x.1, x.2.1, x.2.2.1, noteErrs x.2.2.2) := by
  unfold eCtxFinalize nCtxFinalize
  note_step [nTransform_err]

theorem nInitialize_err (A : Alg w) (env : Env w) (c : Option (Option Nat)) (s : St w) (ns : List Note) :
    eInitialize A env c s (noteErrs ns) = nInitialize A env c s ns >>= fun x => .ok (x.1, x.2.1, x.2.2.1, noteErrs x.2.2.2) := by
  unfold eInitialize nInitialize
  note_step []

theorem nFree_err (c : Option (Option Nat)) (s : St w) (ns : List Note) :
    eFree c s (noteErrs ns) = nFree c s ns >>= fun x => .ok (x.1, x.2.1, x.2.2.1, noteErrs x.2.2.2) := by
  unfold eFree nFree
  note_step []

theorem nUpdate_err (A : Alg w) (u : Bool) (env : Env w) (slot : Option Nat) (b : Option (List Byte)) (size : Nat) (s : St w) (ns : List Note) :
    eUpdate A u env slot b size s (noteErrs ns) = nUpdate A u env slot b size s ns >>= fun x => .ok (x.1, x.2.1, noteErrs x.2.2) := by
  unfold eUpdate nUpdate
  cases slot with
  | none => note_step [nCtxUpdate_err]
  | some p =>
    simp only
    generalize getKey p s.live = g
    note_step [nCtxUpdate_err]

theorem nFinalize_err (A : Alg w) (u : Bool) (env : Env w) (slot : Option Nat) (o : Option (List Byte)) (size : Nat) (s : St w) (ns : List Note) :
    eFinalize A u env slot o size s (noteErrs ns) = nFinalize A u env slot o size s ns >>= fun x => .ok (x.1, x.2.1, x.2.2.1, noteErrs x.2.2.2) := by
  unfold eFinalize nFinalize
  cases slot with
  | none => note_step [nCtxFinalize_err]
  | some p =>
    simp only
    generalize getKey p s.live = g
    note_step [nCtxFinalize_err]

theorem nLocalInit_err (fn : Fn) (A : Alg w) (env : Env w) (slot : Option Nat) (s : St w) (ns : List Note) :
    eLocalInit A env slot s (noteErrs ns) = nLocalInit fn A env slot s ns >>= fun x => .ok (x.1, x.2.1, x.2.2.1, noteErrs x.2.2.2) := by
  unfold eLocalInit nLocalInit
  note_step [nInitialize_err]

theorem nLocalFree_err (fn : Fn) (slot : Option Nat) (s : St w) (ns : List Note) :
    eLocalFree slot s (noteErrs ns) = nLocalFree fn slot s ns >>= fun x => .ok (x.1, x.2.1, x.2.2.1, noteErrs x.2.2.2) := by
  unfold eLocalFree nLocalFree
  note_step [nFree_err]

theorem nCalculate_err (A : Alg w) (u : Bool) (env : Env w) (buffer : Option Nat) (size : Nat) (hash : Option Nat) (hashSize : Nat) (s : St w) (ns : List Note) :
    eCalculate A u env buffer size hash hashSize s (noteErrs ns) = nCalculate A u env buffer size hash hashSize s ns >>= fun x => .ok (x.1, x.2.1, noteErrs x.2.2) := by
  unfold eCalculate nCalculate
  note_step [nLocalInit_err .calculate, nUpdate_err, nFinalize_err, nLocalFree_err .calculate]

theorem nHmacKey_err (A : Alg w) (u : Bool) (env : Env w) (key : Option Nat) (keySize : Nat) (l : Loc) (s : St w) (ns : List Note) :
    eHmacKey A u env key keySize l s (noteErrs ns) = nHmacKey A u env key keySize l s ns >>= fun x => .ok (x.1, x.2.1, x.2.2.1, noteErrs x.2.2.2) := by
  unfold eHmacKey nHmacKey
  obtain ⟨p, s⟩ := allocBytes env A.hmacBlockSize s
  cases p with
  | none => note_step []
  | some p =>
    by_cases hk : keySize ≤ A.hmacBlockSize
    · simp only [hk, if_true]
      generalize region s key keySize = g
      note_step []
    · simp only [hk, if_false]
      note_step [nLocalInit_err .calculateHmac, nUpdate_err, nFinalize_err, nLocalFree_err .calculateHmac]

theorem nHmacPads_err (A : Alg w) (env : Env w) (l : Loc) (s : St w) (ns : List Note) :
    eHmacPads A env l s (noteErrs ns) = nHmacPads A env l s ns >>= fun x => .ok (x.1, x.2.1, x.2.2.1, noteErrs x.2.2.2) := by
  unfold eHmacPads nHmacPads
  obtain ⟨p, s⟩ := allocBytes env A.hmacBlockSize s
  cases p with
  | none => note_step []
  | some p =>
    simp only [Res.bind_assoc]
    refine Res.note_congr fun d => Res.note_congr fun d => Res.note_congr fun s => ?_
    obtain ⟨q, s⟩ := allocBytes env A.hmacBlockSize s
    note_step []

theorem nHmacPass_err (A : Alg w) (u : Bool) (env : Env w) (padding buffer : Option Nat) (size : Nat) (hmac : Option Nat) (hmacSize : Nat) (l : Loc) (s : St w) (ns : List Note) :
    eHmacPass A u env padding buffer size hmac hmacSize l s (noteErrs ns) =
      nHmacPass A u env padding buffer size hmac hmacSize l s ns >>= fun x => .ok (x.1, x.2.1, x.2.2.1, noteErrs x.2.2.2) := by
  unfold eHmacPass nHmacPass
  note_step [nLocalInit_err .calculateHmac, nUpdate_err, nFinalize_err, nLocalFree_err .calculateHmac]

theorem nCalculateHmac_err (A : Alg w) (u : Bool) (env : Env w) (kh : List Byte) (key : Option Nat) (keySize : Nat) (buffer : Option Nat) (size : Nat) (hmac : Option Nat) (hmacSize : Nat) (s : St w) (ns : List Note) :
    eCalculateHmac A u env kh key keySize buffer size hmac hmacSize s (noteErrs ns) =
      nCalculateHmac A u env kh key keySize buffer size hmac hmacSize s ns >>= fun x => .ok (x.1, x.2.1, x.2.2.1, noteErrs x.2.2.2) := by
  unfold eCalculateHmac nCalculateHmac
  note_step [nHmacKey_err, nHmacPads_err, nHmacPass_err]

theorem nStep_err (A : Alg w) (u : Bool) (env : Env w) (call : ApiCall) (scr : Scr w) (slot : Option Nat) (s : St w) (ns : List Note) :
    eStep A u env call scr slot s (noteErrs ns) = nStep A u env call scr slot s ns >>= fun x => .ok (x.1, x.2.1, x.2.2.1, noteErrs x.2.2.2) := by
  unfold eStep nStep
  cases call <;> note_step [nInitialize_err, nFree_err, nUpdate_err, nFinalize_err]

theorem nDepStep_err (A : Alg w) (u : Bool) (env : Env w) (call : ApiCall) (scr : Scr w) (slot : Option Nat) (s : St w) (ns : List Note) :
    eDepStep A u env call scr slot s (noteErrs ns) = nDepStep A u env call scr slot s ns >>= fun x => .ok (x.1, x.2.1, x.2.2.1, noteErrs x.2.2.2) := by
  unfold eDepStep nDepStep eDepInitialize nDepInitialize eDepFree nDepFree eDepUpdate nDepUpdate eDepFinalize nDepFinalize
  cases call <;> note_step [nInitialize_err, nFree_err, nUpdate_err, nFinalize_err]

theorem nRun_err (A : Alg w) (u : Bool) (env : Env w) : ∀ (calls : List (Bool × ApiCall × Scr w)) (slot : Option Nat) (s : St w),
    eRun A u env calls slot s = nRun A u env calls slot s >>= fun x => .ok (x.1.map fun y => (y.1, noteErrs y.2), x.2.1, x.2.2)
  | [], _, _ => rfl
  | (dep, c, scr) :: cs, slot, s => by
    unfold eRun nRun
    have h1 := nDepStep_err A u env c scr slot s []
    have h2 := nStep_err A u env c scr slot s []
    change eDepStep A u env c scr slot s [] = _ at h1
    change eStep A u env c scr slot s [] = _ at h2
    rw [h1, h2]
    cases dep <;> note_step [nRun_err A u env cs, if_true, if_false, Bool.false_eq_true, List.map_cons]

/-- A program has a reply for each call. -/
theorem mixedRun_length {u : Bool} {env : Env w} : ∀ {calls : List (Bool × ApiCall × Scr w)} {slot : Option Nat} {s : St w} {x : List Reply × Option Nat × St w},
    mixedRun A u env calls slot s = .ok x → x.1.length = calls.length
  | [], slot, s, x, h => by cases h; rfl
  | (dep, c, scr) :: cs, slot, s, x, h => by
    unfold mixedRun at h
    generalize (if dep then depStep A u env c scr slot s else step A u env c scr slot s) = y at h
    cases y with
    | ub => cases h
    | diverge => cases h
    | ok y =>
      simp only [Res.ok_bind] at h
      cases h2 : mixedRun A u env cs y.2.1 y.2.2 with
      | ub => rw [h2] at h; cases h
      | diverge => rw [h2] at h; cases h
      | ok z =>
        rw [h2] at h
        cases h
        simp [mixedRun_length h2]

theorem split_at {c : Char} : ∀ {a a' r r' : List Char}, c ∉ a → c ∉ a' → a ++ c :: r = a' ++ c :: r' → a = a' ∧ r = r'
  | [], [], r, r', _, _, h => by simpa using h
  | [], b :: a', r, r', _, h2, h => by
    simp only [List.nil_append, List.cons_append, List.cons.injEq] at h
    simp [h.1] at h2
  | b :: a, [], r, r', h1, _, h => by
    simp only [List.nil_append, List.cons_append, List.cons.injEq] at h
    simp [← h.1] at h1
  | b :: a, b' :: a', r, r', h1, h2, h => by
    simp only [List.cons_append, List.cons.injEq] at h
    simp only [List.mem_cons, not_or] at h1 h2
    obtain ⟨h3, h4⟩ := split_at h1.2 h2.2 h.2
    exact ⟨by rw [h.1, h3], h4⟩

theorem algorithmName_inj {k k' : Spec.Kind} (h : algorithmName k = algorithmName k') : k = k' := by
  cases k <;> cases k' <;> first | rfl | (simp [algorithmName] at h)

theorem fnName_inj {f f' : Fn} (h : fnName f = fnName f') : f = f' := by
  cases f <;> cases f' <;> first | rfl | (simp [fnName] at h)

theorem txtText_inj {k : Spec.Kind} {t t' : Spec.Txt} (h : txtText k t = txtText k t') : t = t' := by
  cases k <;> cases t <;> cases t' <;> first | rfl | (simp [txtText] at h)

theorem functionName_inj {k k' : Spec.Kind} {f f' : Fn} (h : functionName k f = functionName k' f') : k = k' ∧ f = f' := by
  have h := congrArg String.toList h
  simp only [functionName, String.toList_append, List.append_assoc] at h
  have h := List.append_cancel_left h
  have h1 : ∀ k, '_' ∉ (algorithmName k).toList := by intro k; cases k <;> decide
  obtain ⟨h3, h4⟩ := split_at (h1 k) (h1 k') h
  exact ⟨algorithmName_inj (String.toList_inj.mp h3), fnName_inj (String.toList_inj.mp h4)⟩

theorem functionName_colon (k : Spec.Kind) (f : Fn) : ':' ∉ (functionName k f).toList := by
  have h1 : ':' ∉ (algorithmName k).toList := by cases k <;> decide
  have h2 : ':' ∉ (fnName f).toList := by cases f <;> decide
  simp only [functionName, String.toList_append, List.mem_append, not_or]
  exact ⟨⟨⟨by decide, h1⟩, by decide⟩, h2⟩

end Model

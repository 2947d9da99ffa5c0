import Verif.Proofs.BuildsMulti
import Verif.Model.MultiBuilds
/-! Programs with many contexts, in every build. -/

namespace Model

open Spec (ApiCall Reply Kind maxSize accepted UsedOnce apiStep)

variable {ch : Kind → Choice} {L : Kind → Library} {kinds : Nat → Kind} {base : (k : Kind) → List (Nat × BObj (L k).State)} {Rep : (k : Kind) → (L k).State → List Byte → Prop} {mbase : Nat → List Nat}

theorem historyOf_cons (i j : Nat) (c : ApiCall) (r : Reply) (h : List ((Nat × ApiCall) × Reply)) : historyOf i (((j, c), r) :: h) = if j = i then (c, r) :: historyOf i h else historyOf i h := by
  by_cases hj : j = i <;> simp [historyOf, hj]

/-- No program has undefined behaviour, and no finalize that succeeds returns a wrong digest. -/
theorem multi_ok (hL : ∀ k, ch k ≠ .builtin → Contract (L k) k (Rep k)) (htame : ∀ k, ch k ≠ .builtin → Tame (L k) k.hashSize) {T : Tool} (hT : ∀ k n, Kind.Junk k (T.scr k n)) :
    ∀ (calls : List (Nat × ApiCall)) (n : Nat) (slots : Nat → Option Nat) (m : MixedMem L) (acc : Nat → Option (List Byte)), (∀ c ∈ calls, c.2.Valid) → MixMulti ch L Rep kinds mbase base slots m acc →
      ∃ rs slots' m' acc', Builds.multi (.mixed ch L T) kinds n calls slots m = .ok (rs, slots', m') ∧ rs.length = calls.length ∧ MixMulti ch L Rep kinds mbase base slots' m' acc' ∧
        ∀ j i o size r msg, calls[j]? = some (i, .finalize (some o) size) → rs[j]? = some r → r.code = 1 → accepted (historyOf i ((calls.zip rs).take j)) (acc i) = some msg → msg.length < 2 ^ 61 →
          r.out = some ((kinds i).std.digest msg ++ o.drop (kinds i).hashSize)
  | [], n, slots, m, acc, _, h => ⟨[], slots, m, acc, rfl, rfl, h, fun j i o size r msg hc => by simp at hc⟩
  | (i, c) :: cs, n, slots, m, acc, hv, h => by
    obtain ⟨r, slot', m1, e, -, h1, hf⟩ := mixed_step hL htame i c n (hT _ _) (hv (i, c) (by simp)) h
    obtain ⟨rs, slots', m', acc', e', hlen, h2, hd⟩ := multi_ok hL htame hT cs (n + 1) _ m1 _ (fun c hc => hv c (by simp [hc])) h1
    refine ⟨r :: rs, slots', m', acc', by simp only [Builds.multi, e, Res.ok_bind, e', Res.pure_eq], by simp [hlen], h2, fun j i' o size r' msg hc hr hcode hm hl => ?_⟩
    cases j with
    | zero =>
      simp only [List.getElem?_cons_zero, Option.some.injEq, Prod.mk.injEq] at hc hr
      obtain ⟨rfl, rfl⟩ := hc
      subst hr
      simp only [List.take_zero, historyOf, List.filter_nil, List.map_nil, accepted] at hm
      cases hs : slots i with
      | none =>
        rw [hs] at hf
        rw [hf.1] at hcode
        simp at hcode
      | some p =>
        rw [hs] at hf
        obtain ⟨-, -, -, ⟨-, hx⟩ | ⟨-, d, -, ho, hd⟩⟩ := hf
        · rw [hx] at hcode
          simp at hcode
        · rw [ho, hd hcode msg hm hl]
    | succ j =>
      simp only [List.getElem?_cons_succ] at hc hr
      refine hd j i' o size r' msg hc hr hcode ?_ hl
      rw [List.zip_cons_cons, List.take_succ_cons, historyOf_cons] at hm
      by_cases hi : i = i'
      · subst hi
        rw [if_pos rfl, accepted_cons] at hm
        rw [Function.update_self]
        exact hm
      · rw [if_neg hi] at hm
        rw [Function.update_of_ne (Ne.symm hi)]
        exact hm

/-- No call is refused on account of its size. -/
def Fits (c : Choice) (k : Kind) : ApiCall → Prop
  | .update (some _) n => n ≤ c.limit
  | .finalize (some _) n => k.hashSize ≤ n ∧ n < 2 ^ 32
  | _ => True

/-- The abstract context `b` of a variable; `f`: it has been finalised. -/
structure Track (k : Kind) (f : Bool) (b : Option (List (BitVec k.width) × List Byte)) (slot : Option Nat) (acc : Option (List Byte)) : Prop where
  null : slot = none ↔ b = none
  free : b = none → f = false
  msg : ∀ h0 msg, b = some (h0, msg) → f = false → h0 = k.len64.iv ∧ acc = some msg

theorem Choice.limit_le (c : Choice) : c.limit ≤ maxSize := by
  cases c with
  | builtin => exact Nat.le_refl _
  | crypto B => exact maxUpdate_le B

/-- A call with a reliable library does what the abstract machine does. -/
theorem facts_refine {k : Kind} {ch : Choice} {Good : Prop} {al : Bool} {acc : Option (List Byte)} {c : ApiCall} {slot slot' : Option Nat} {r : Reply} (hf : StepFacts k ch.limit Good al acc c slot r slot') (hg : Good) (hfit : Fits ch k c)
    (hv : c.Valid) {f : Bool} {b : Option (List (BitVec k.width) × List Byte)} (ht : Track k f b slot acc) (hfu : ∀ b n, c = .update b n → f = false) (hff : ∀ o n, c = .finalize o n → f = false) {N : Nat}
    (hlen : ApiState.held ⟨b, N⟩ + c.bytes < 2 ^ 61) (al' : Nat → Bool) (hal : al' N = al) :
    ∃ b', apiStep k.len64 k.hashSize (List.replicate k.words 0) al' c ⟨b, N⟩ = (r, ⟨b', N + attemptsOf c slot⟩) ∧ Track k (usedNext f c r) b' slot' (acceptedNext c r acc) ∧
      ApiState.held ⟨b', N + attemptsOf c slot⟩ ≤ ApiState.held ⟨b, N⟩ + c.bytes := by
  have hlim := ch.limit_le
  have h32 : 2 ^ 32 ≤ maxSize := by decide
  cases slot with
  | none =>
    obtain rfl : b = none := ht.null.1 rfl
    obtain rfl := ht.free rfl
    cases c with
    | init =>
      obtain ⟨rc, ro⟩ := r
      obtain ⟨h1, h2⟩ := hf
      simp only at h1 h2
      subst h1
      rcases h2 with ⟨rfl, rfl, h2⟩ | ⟨rfl, rfl, h2⟩
      · refine ⟨some (k.len64.iv, []), by simp [apiStep, hal, attemptsOf], ⟨⟨fun h => absurd h h2, fun h => by cases h⟩, fun h => by (cases h), fun h0 msg h _ => ?_⟩, by simp [ApiState.held]⟩
        simp only [Option.some.injEq, Prod.mk.injEq] at h
        refine ⟨h.1.symm, ?_⟩
        simp [acceptedNext, accepted, h.2]
      · obtain rfl := h2.resolve_right fun h => h hg
        exact ⟨none, by simp [apiStep, hal, attemptsOf], ⟨by simp, fun _ => rfl, fun _ _ h => by cases h⟩, by simp [ApiState.held]⟩
    | initNull => obtain ⟨rfl, rfl⟩ := hf; exact ⟨none, rfl, ⟨by simp, fun _ => rfl, fun _ _ h => by cases h⟩, by simp [ApiState.held]⟩
    | free => obtain ⟨rfl, rfl⟩ := hf; exact ⟨none, rfl, ⟨by simp, fun _ => rfl, fun _ _ h => by cases h⟩, by simp [ApiState.held]⟩
    | freeNull => obtain ⟨rfl, rfl⟩ := hf; exact ⟨none, rfl, ⟨by simp, fun _ => rfl, fun _ _ h => by cases h⟩, by simp [ApiState.held]⟩
    | update buf size => obtain ⟨rfl, rfl⟩ := hf; exact ⟨none, rfl, ⟨by simp, fun _ => rfl, fun _ _ h => by cases h⟩, by simp [ApiState.held]⟩
    | finalize out size => obtain ⟨rfl, rfl⟩ := hf; exact ⟨none, rfl, ⟨by simp, fun _ => by simp [usedNext], fun _ _ h => by cases h⟩, by simp [ApiState.held]⟩
  | some p =>
    obtain ⟨⟨h0, msg⟩, rfl⟩ : ∃ x, b = some x := Option.ne_none_iff_exists'.1 fun h => by cases ht.null.2 h
    cases c with
    | init =>
      obtain ⟨rfl, rfl⟩ := hf
      exact ⟨some (h0, msg), rfl, ⟨by simp, fun h => by (cases h), fun _ _ h hf => ht.msg _ _ h hf⟩, by simp [ApiState.held]⟩
    | initNull =>
      obtain ⟨rfl, rfl⟩ := hf
      exact ⟨some (h0, msg), rfl, ⟨by simp, fun h => by (cases h), fun _ _ h hf => ht.msg _ _ h hf⟩, by simp [ApiState.held]⟩
    | free =>
      obtain ⟨rfl, rfl⟩ := hf
      exact ⟨none, rfl, ⟨by simp, fun _ => rfl, fun _ _ h => by cases h⟩, by simp [ApiState.held]⟩
    | freeNull =>
      obtain ⟨rfl, rfl⟩ := hf
      exact ⟨some (h0, msg), rfl, ⟨by simp, fun h => by (cases h), fun _ _ h hf => ht.msg _ _ h hf⟩, by simp [ApiState.held]⟩
    | update buf size =>
      obtain rfl := hfu _ _ rfl
      obtain ⟨rfl, rfl⟩ := ht.msg _ _ rfl rfl
      obtain ⟨rc, ro⟩ := r
      obtain ⟨rfl, h1, h2, h3⟩ := hf
      simp only at h1 h2 h3
      subst h1
      cases buf with
      | none =>
        obtain rfl := h2.resolve_left fun h => h.2.1 rfl
        refine ⟨some (k.len64.iv, msg), rfl, ⟨by simp, fun h => by (cases h), fun _ _ h _ => ?_⟩, by simp [ApiState.held]⟩
        simp only [Option.some.injEq, Prod.mk.injEq] at h
        exact ⟨h.1.symm, by simp [acceptedNext, accepted, h.2]⟩
      | some b =>
        obtain rfl := h3 (by simp) hfit hg
        have hs : size ≤ maxSize := Nat.le_trans hfit hlim
        refine ⟨some (k.len64.iv, msg ++ b.take size), by simp [apiStep, hs, attemptsOf], ⟨by simp, fun h => by (cases h), fun _ _ h _ => ?_⟩, ?_⟩
        · simp only [Option.some.injEq, Prod.mk.injEq] at h
          exact ⟨h.1.symm, by simp [acceptedNext, accepted, h.2]⟩
        · simp only [ApiState.held, ApiCall.bytes, List.length_append, List.length_take, if_pos hs]
          omega
    | finalize out size =>
      obtain rfl := hff _ _ rfl
      obtain ⟨rfl, rfl⟩ := ht.msg _ _ rfl rfl
      cases out with
      | none =>
        obtain ⟨rfl, rfl⟩ := hf
        refine ⟨some (k.len64.iv, msg), rfl, ⟨by simp, fun h => by (cases h), fun _ _ h _ => ?_⟩, by simp [ApiState.held]⟩
        simp only [Option.some.injEq, Prod.mk.injEq] at h
        exact ⟨h.1.symm, by simp [acceptedNext, accepted, h.2]⟩
      | some o =>
        obtain ⟨rc, ro⟩ := r
        obtain ⟨rfl, -, h3, h4⟩ := hf
        simp only at h3 h4
        obtain rfl := h3 hg hfit.1 hfit.2
        rcases h4 with ⟨-, h4⟩ | ⟨-, d, -, rfl, h4⟩
        · simp at h4
        · have hl : msg.length < 2 ^ 61 := Nat.lt_of_le_of_lt (Nat.le_add_right _ _) hlen
          have hd : d = k.len64.digestFrom k.len64.iv msg := by
            rw [h4 rfl msg rfl hl]
            exact (len64_digest k msg (lengthOk_of_lt k hl)).symm
          have hs : k.hashSize ≤ size ∧ size ≤ maxSize := ⟨hfit.1, by have := hfit.2; omega⟩
          exact ⟨some (List.replicate k.words 0, []), by simp [apiStep, hs, attemptsOf, hd], ⟨by simp, fun h => by (cases h), fun _ _ _ h => by simp [usedNext] at h⟩, by simp [ApiState.held]⟩

/-- The calls on one variable with a reliable library, as the abstract machine answers them alone. -/
theorem multi_refines (hL : ∀ k, ch k ≠ .builtin → Contract (L k) k (Rep k)) (htame : ∀ k, ch k ≠ .builtin → Tame (L k) k.hashSize) {T : Tool} (hT : ∀ k n, Kind.Junk k (T.scr k n)) (i : Nat)
    (hg : ch (kinds i) ≠ .builtin → Reliable (L (kinds i))) :
    ∀ (calls : List (Nat × ApiCall)) (n : Nat) (slots : Nat → Option Nat) (m : MixedMem L) (acc : Nat → Option (List Byte)) (f : Bool) (b : Option (List (BitVec (kinds i).width) × List Byte)) (N : Nat),
      (∀ c ∈ calls, c.2.Valid) → (∀ c ∈ calls, c.1 = i → Fits (ch (kinds i)) (kinds i) c.2) → MixMulti ch L Rep kinds mbase base slots m acc → Track (kinds i) f b (slots i) (acc i) →
      ApiState.held ⟨b, N⟩ + (((calls.filter (·.1 = i)).map fun c => c.2.bytes).sum) < 2 ^ 61 →
      ∃ rs slots' m', Builds.multi (.mixed ch L T) kinds n calls slots m = .ok (rs, slots', m') ∧ rs.length = calls.length ∧
        (UsedOnce f (historyOf i (calls.zip rs)) → ∃ num : Nat → Nat, (∀ n, num n < num (n + 1)) ∧ m.mem.count ≤ num 0 ∧
          (historyOf i (calls.zip rs)).map (·.2) = (specRun (kinds i) (fun d => T.alloc (num (d - N))) ((calls.filter (·.1 = i)).map (·.2)) ⟨b, N⟩).1)
  | [], n, slots, m, acc, f, b, N, _, _, _, _, _ => ⟨[], slots, m, rfl, rfl, fun _ => ⟨fun n => m.mem.count + n, fun n => by dsimp only; omega, by simp, rfl⟩⟩
  | (j, c) :: cs, n, slots, m, acc, f, b, N, hv, hfit, h, ht, hlen => by
    obtain ⟨r, slot', m1, e, hcount, h1, hf⟩ := mixed_step hL htame j c n (hT _ _) (hv (j, c) (by simp)) h
    by_cases hj : j = i
    · subst hj
      have hfl : ((j, c) :: cs).filter (·.1 = j) = (j, c) :: cs.filter (·.1 = j) := by simp
      rw [hfl, List.map_cons, List.sum_cons] at hlen
      dsimp only at hlen
      by_cases hused : (∀ b n, c = .update b n → f = false) ∧ ∀ o n, c = .finalize o n → f = false
      · obtain ⟨b', e1, ht', hheld⟩ := facts_refine hf hg (hfit (j, c) (by simp) rfl) (hv (j, c) (by simp)) ht hused.1 hused.2 (N := N) (by omega) (fun d => T.alloc (m.mem.count + (d - N))) (by simp)
        obtain ⟨rs, slots', m', e', hrl, hrest⟩ := multi_refines hL htame hT j hg cs (n + 1) _ m1 _ _ b' (N + attemptsOf c (slots j)) (fun c hc => hv c (by simp [hc])) (fun c hc => hfit c (by simp [hc])) h1
          (by rw [Function.update_self, Function.update_self]; exact ht') (by omega)
        refine ⟨r :: rs, slots', m', by simp only [Builds.multi, e, Res.ok_bind, e', Res.pure_eq], by simp [hrl], fun hu => ?_⟩
        rw [List.zip_cons_cons, historyOf_cons, if_pos rfl] at hu ⊢
        obtain ⟨num, hn1, hn2, hn3⟩ := hrest (usedOnce_cons hu).1
        have hatt : attemptsOf c (slots j) = 0 ∨ attemptsOf c (slots j) = 1 := by
          unfold attemptsOf
          split <;> simp
        rw [hfl]
        simp only [List.map_cons, specRun, Spec.apiRun]
        have hmono : ∀ d, num 0 ≤ num d := fun d => by
          induction d with
          | zero => exact Nat.le_refl _
          | succ d ih => exact Nat.le_trans ih (Nat.le_of_lt (hn1 d))
        rcases hatt with ha | ha
        · rw [ha, Nat.add_zero] at e1 hn3 hcount
          refine ⟨num, hn1, by omega, ?_⟩
          have e2 := apiStep_attempts (kinds j).len64 (kinds j).hashSize (List.replicate (kinds j).words 0) (fun d => T.alloc (m.mem.count + (d - N))) c b N
          rw [e1] at e2
          rcases e2 with ⟨-, e2⟩ | ⟨e2, -⟩
          · rw [e2, hn3]
          · simp at e2
        · rw [ha] at e1 hn3 hcount
          refine ⟨fun d => match d with | 0 => m.mem.count | d + 1 => num d, ?_, Nat.le_refl _, ?_⟩
          · intro d
            cases d with
            | zero => show m.mem.count < num 0; omega
            | succ d => exact hn1 d
          · have e2 := apiStep_attempts (kinds j).len64 (kinds j).hashSize (List.replicate (kinds j).words 0) (fun d => T.alloc (m.mem.count + (d - N))) c b N
            rw [e1] at e2
            rcases e2 with ⟨e2, -⟩ | ⟨-, e2⟩
            · simp at e2
            · rw [e2 _ N (by simp), hn3]
              simp only [List.cons.injEq, true_and]
              exact apiRun_shift _ _ _ _ _ _ _ _ _ fun d => by
                have h1 : N + 1 + d - (N + 1) = d := by omega
                have h2 : N + 1 + d - N = d + 1 := by omega
                simp only [h1, h2]
      · obtain ⟨rs, slots', m', acc', e', hrl, -⟩ := multi_ok hL htame hT cs (n + 1) _ m1 _ (fun c hc => hv c (by simp [hc])) h1
        refine ⟨r :: rs, slots', m', by simp only [Builds.multi, e, Res.ok_bind, e', Res.pure_eq], by simp [hrl], fun hu => ?_⟩
        rw [List.zip_cons_cons, historyOf_cons, if_pos rfl] at hu
        exact absurd (usedOnce_cons hu).2 hused
    · have hfl : ((j, c) :: cs).filter (·.1 = i) = cs.filter (·.1 = i) := by simp [hj]
      rw [hfl] at hlen ⊢
      obtain ⟨rs, slots', m', e', hrl, hrest⟩ := multi_refines hL htame hT i hg cs (n + 1) _ m1 _ f b N (fun c hc => hv c (by simp [hc])) (fun c hc => hfit c (by simp [hc])) h1
          (by rw [Function.update_of_ne (Ne.symm hj), Function.update_of_ne (Ne.symm hj)]; exact ht) hlen
      refine ⟨r :: rs, slots', m', by simp only [Builds.multi, e, Res.ok_bind, e', Res.pure_eq], by simp [hrl], fun hu => ?_⟩
      rw [List.zip_cons_cons, historyOf_cons, if_neg hj] at hu ⊢
      obtain ⟨num, h1, h2, h3⟩ := hrest hu
      exact ⟨num, h1, by omega, h3⟩

/-- A call of free leaves the variable NULL. -/
theorem free_none {k : Kind} {lim : Nat} {Good : Prop} {al : Bool} {acc : Option (List Byte)} {slot slot' : Option Nat} {r : Reply} (hf : StepFacts k lim Good al acc .free slot r slot') : slot' = none := by
  cases slot with
  | none => exact hf.2
  | some p => exact hf.2

/-- After a free of each variable in a list, these variables are NULL, and the others unchanged. -/
theorem multi_frees (hL : ∀ k, ch k ≠ .builtin → Contract (L k) k (Rep k)) (htame : ∀ k, ch k ≠ .builtin → Tame (L k) k.hashSize) {T : Tool} (hT : ∀ k n, Kind.Junk k (T.scr k n)) :
    ∀ (vars : List Nat) (n : Nat) (slots : Nat → Option Nat) (m : MixedMem L) (acc : Nat → Option (List Byte)), MixMulti ch L Rep kinds mbase base slots m acc →
      ∃ rs slots' m' acc', Builds.multi (.mixed ch L T) kinds n (vars.map fun i => (i, .free)) slots m = .ok (rs, slots', m') ∧ MixMulti ch L Rep kinds mbase base slots' m' acc' ∧
        ∀ i, slots' i = if i ∈ vars then none else slots i
  | [], n, slots, m, acc, h => ⟨[], slots, m, acc, rfl, h, fun i => by simp⟩
  | v :: vars, n, slots, m, acc, h => by
    obtain ⟨r, slot', m1, e, -, h1, hf⟩ := mixed_step hL htame v .free n (hT _ _) trivial h
    obtain rfl := free_none hf
    obtain ⟨rs, slots', m', acc', e', h2, hs⟩ := multi_frees hL htame hT vars (n + 1) _ m1 _ h1
    refine ⟨r :: rs, slots', m', acc', by simp only [List.map_cons, Builds.multi, e, Res.ok_bind, e', Res.pure_eq], h2, fun i => ?_⟩
    rw [hs i]
    by_cases hi : i = v
    · subst hi
      simp
    · simp [hi]

theorem multi_append {M : Type} (C : Contexts M) (kinds : Nat → Kind) : ∀ (cs ds : List (Nat × ApiCall)) (n : Nat) (slots : Nat → Option Nat) (m : M),
    Builds.multi C kinds n (cs ++ ds) slots m = do
      let (rs, slots, m) ← Builds.multi C kinds n cs slots m
      let (qs, slots, m) ← Builds.multi C kinds (n + cs.length) ds slots m
      pure (rs ++ qs, slots, m)
  | [], ds, n, slots, m => by
    simp only [List.nil_append, Builds.multi, Res.ok_bind, List.length_nil, Nat.add_zero]
    cases Builds.multi C kinds n ds slots m <;> rfl
  | (i, c) :: cs, ds, n, slots, m => by
    simp only [List.cons_append, Builds.multi, List.length_cons]
    cases C.call (kinds i) c n (slots i) m with
    | ok x =>
      simp only [Res.ok_bind]
      rw [multi_append C kinds cs ds]
      rw [show n + (cs.length + 1) = n + 1 + cs.length by omega]
      cases Builds.multi C kinds (n + 1) cs (Function.update slots i x.2.1) x.2.2 with
      | ok y =>
        simp only [Res.ok_bind, Res.pure_eq]
        cases Builds.multi C kinds (n + 1 + cs.length) ds y.2.1 y.2.2 <;> rfl
      | ub => rfl
      | diverge => rfl
    | ub => rfl
    | diverge => rfl

/-- Variables that are not used are unchanged. -/
theorem multi_unused {M : Type} (C : Contexts M) (kinds : Nat → Kind) (i : Nat) : ∀ (cs : List (Nat × ApiCall)) (n : Nat) (slots : Nat → Option Nat) (m : M) {rs : List Reply} {slots' : Nat → Option Nat} {m' : M},
    Builds.multi C kinds n cs slots m = .ok (rs, slots', m') → (∀ c ∈ cs, c.1 ≠ i) → slots' i = slots i
  | [], n, slots, m, rs, slots', m', e, _ => by
    simp only [Builds.multi, Res.ok.injEq, Prod.mk.injEq] at e
    rw [e.2.1]
  | (j, c) :: cs, n, slots, m, rs, slots', m', e, h => by
    simp only [Builds.multi] at e
    cases h1 : C.call (kinds j) c n (slots j) m with
    | ok x =>
      obtain ⟨r, slot', m1⟩ := x
      rw [h1] at e
      simp only [Res.ok_bind] at e
      cases h2 : Builds.multi C kinds (n + 1) cs (Function.update slots j slot') m1 with
      | ok y =>
        rw [h2] at e
        simp only [Res.ok_bind, Res.pure_eq, Res.ok.injEq, Prod.mk.injEq] at e
        have := multi_unused C kinds i cs (n + 1) _ m1 (rs := y.1) (slots' := y.2.1) (m' := y.2.2) h2 fun c hc => h c (by simp [hc])
        rw [← e.2.1, this, Function.update_of_ne (h (j, c) (by simp)).symm]
      | ub => rw [h2] at e; cases e
      | diverge => rw [h2] at e; cases e
    | ub => rw [h1] at e; cases e
    | diverge => rw [h1] at e; cases e

/-- A context that is created, fed, finalised and not used further is used for one message, whatever the replies. -/
theorem usedOnce_stream : ∀ (chunks : List (List Byte)) (o : Option (List Byte)) (n : Nat) (h : List (ApiCall × Reply)),
    h.map (·.1) = chunks.map (fun b => .update (some b) b.length) ++ [.finalize o n] → UsedOnce false h
  | [], o, n, h, e => by
    cases h with
    | nil => trivial
    | cons x h =>
      obtain ⟨c, r⟩ := x
      simp only [List.map_cons, List.map_nil, List.nil_append, List.cons.injEq, List.map_eq_nil_iff] at e
      obtain ⟨rfl, rfl⟩ := e
      exact ⟨rfl, trivial⟩
  | b :: chunks, o, n, h, e => by
    cases h with
    | nil => trivial
    | cons x h =>
      obtain ⟨c, r⟩ := x
      simp only [List.map_cons, List.cons_append, List.cons.injEq] at e
      obtain ⟨rfl, e⟩ := e
      exact ⟨rfl, usedOnce_stream chunks o n h e⟩

theorem historyOf_calls (i : Nat) : ∀ (calls : List (Nat × ApiCall)) (rs : List Reply), rs.length = calls.length → (historyOf i (calls.zip rs)).map (·.1) = (calls.filter (·.1 = i)).map (·.2)
  | [], rs, _ => by simp [historyOf]
  | (j, c) :: cs, [], h => by simp at h
  | (j, c) :: cs, r :: rs, h => by
    have ih := historyOf_calls i cs rs (by simpa using h)
    rw [List.zip_cons_cons, historyOf_cons]
    by_cases hj : j = i <;> simp [hj, ih]

end Model

import Verif.Proofs.BuildsMain
/-! Builds that choose for every algorithm between the built-in functions and those of a crypto library obey the law. -/

namespace Model.Builds

open Model
open Spec (Kind IterHash ApiCall Reply ApiState)

/-- The context variables of the algorithms that are built in. -/
def restrict (ch : Kind → Choice) (ctx : Kind → Option Nat) : Kind → Option Nat := fun k => if ch k = .builtin then ctx k else none

/-- A built-in context stands for some bytes. -/
def Stands (k : Kind) (a : Option (List (BitVec k.width) × List Byte)) (b : Option (Option (List Byte))) : Prop :=
  match a, b with
  | none, none => True
  | some (h0, msg), some x => ∀ y, x = some y → h0 = k.len64.iv ∧ msg = y
  | _, _ => False

/-- A context of the library stands for some bytes; the live objects are its own and `live0`. -/
def CryptoRel {L : Library} (B : Backend) (Rep : L.State → List Byte → Prop) (live0 : List (Nat × BObj L.State)) (slot : Option Nat) (live : List (Nat × BObj L.State))
    (b : Option (Option (List Byte))) : Prop :=
  match slot, b with
  | none, none => live = live0
  | some p, some x => ∃ st, Holds B live0 p st live ∧ Accepted Rep x st
  | _, _ => False

variable {ch : Kind → Choice} {L : Kind → Library}

/-- The relation for a build: `base` and `live0` are the live objects that are not those of the handle. -/
structure MixedRel (ch : Kind → Choice) (L : Kind → Library) (Rep : (k : Kind) → (L k).State → List Byte → Prop) (base : Nat → List Nat) (live0 : (k : Kind) → List (Nat × BObj (L k).State))
    (ctx : Kind → Option Nat) (m : MixedMem L) (b : Msgs) : Prop where
  builtin : ∃ a : Abs, CtxRel base (restrict ch ctx) ⟨m.mem, []⟩ a ∧ ∀ k, ch k = .builtin → Stands k (a k) (b k)
  crypto : ∀ k B, ch k = .crypto B → CryptoRel B (Rep k) (live0 k) (ctx k) (m.live k) (b k)
  others : ∀ k, ch k = .builtin → m.live k = live0 k

theorem builtin_call {T : Tool} {base : Nat → List Nat} (hT : T.Ok) (k : Kind) (c : ApiCall) (n : Nat) (ctx : Kind → Option Nat) (mem : Mem) (a : Abs) (hv : c.Valid) (hrel : CtxRel base ctx ⟨mem, []⟩ a) :
    ∃ slot' mem', (Contexts.builtin T).call k c n (ctx k) mem = .ok ((kindStep k T.alloc c (a k) mem.count).1, slot', mem') ∧
      CtxRel base (Function.update ctx k slot') ⟨mem', []⟩ (Function.update a k (kindStep k T.alloc c (a k) mem.count).2.slot) := by
  obtain ⟨slot', s', e, hr, -, hge, hown⟩ := multi_step (fun k : Kind => k) (T.unrolled k) T.alloc (fun k => T.envs k.width) k c (T.scr k n) ctx mem a hv
    (hT.scr k n) hrel.1
  refine ⟨slot', mem.put k.width s', ?_, hr, fun w => ?_⟩
  · simp only [Contexts.builtin]
    erw [e]
    rfl
  · have h0 := ctxKeys_update ctx k (ctx k) w (base w)
    rw [Function.update_eq_self] at h0
    refine List.Perm.trans ?_ (ctxKeys_update ctx k slot' w (base w)).symm
    have h1 := (hrel.2 w).trans h0
    by_cases hw : w = k.width
    · subst hw
      simp only [if_true] at h1 ⊢
      simp only [Mem.put, Function.update_self]
      exact hown _ h1
    · simp only [if_neg (Ne.symm hw), Mem.put, Function.update_of_ne hw] at h1 ⊢
      exact h1

theorem ctxRel_count {base : Nat → List Nat} {ctx : Kind → Option Nat} {mem : Mem} {a : Abs} (h : CtxRel base ctx ⟨mem, []⟩ a) (n : Nat) (hn : mem.count ≤ n) :
    CtxRel base ctx ⟨{ mem with count := n }, []⟩ a := by
  refine ⟨⟨fun k => ?_, h.1.2⟩, h.2⟩
  have := h.1.1 k
  revert this
  unfold VarRel
  cases ctx k <;> cases a k <;> simp only [imp_self]
  rintro ⟨h1, h2⟩
  exact ⟨Nat.lt_of_lt_of_le h1 hn, h2⟩

theorem restrict_builtin {k : Kind} (h : ch k = .builtin) (ctx : Kind → Option Nat) (slot : Option Nat) : restrict ch (Function.update ctx k slot) = Function.update (restrict ch ctx) k slot := by
  funext j
  by_cases hj : j = k
  · subst hj
    simp [restrict, h]
  · simp [restrict, Function.update_of_ne hj]

theorem restrict_crypto {k : Kind} (h : ch k ≠ .builtin) (ctx : Kind → Option Nat) (slot : Option Nat) : restrict ch (Function.update ctx k slot) = restrict ch ctx := by
  funext j
  by_cases hj : j = k
  · subst hj
    simp [restrict, h]
  · simp [restrict, Function.update_of_ne hj]

variable {Rep : (k : Kind) → (L k).State → List Byte → Prop} {base : Nat → List Nat} {live0 : (k : Kind) → List (Nat × BObj (L k).State)}

theorem MixedRel.null {ctx : Kind → Option Nat} {m : MixedMem L} {b : Msgs} (h : MixedRel ch L Rep base live0 ctx m b) (k : Kind) : ctx k = none ↔ b k = none := by
  cases hk : ch k with
  | builtin =>
    obtain ⟨a, ha, hs⟩ := h.builtin
    have h1 := ctxRel_none ha k
    have h2 := hs k hk
    rw [restrict, if_pos hk] at h1
    rw [h1]
    revert h2
    cases a k <;> cases b k <;> simp [Stands]
  | crypto B =>
    have h2 := h.crypto k B hk
    revert h2
    cases ctx k <;> cases b k <;> simp [CryptoRel]

/-- The built-in part of a call. -/
theorem mixed_builtin {T : Tool} (hT : T.Ok) {ctx : Kind → Option Nat} {m : MixedMem L} {b : Msgs} (h : MixedRel ch L Rep base live0 ctx m b) (k : Kind) (hk : ch k = .builtin) (c : ApiCall) (n : Nat) (hv : c.Valid) :
    ∃ a0 slot' m', Stands k a0 (b k) ∧ (∀ h0 msg, a0 = some (h0, msg) → h0.length = (algOf k).nHash) ∧ (Contexts.mixed ch L T).call k c n (ctx k) m = .ok ((kindStep k T.alloc c a0 m.mem.count).1, slot', m') ∧
      ∀ y, Stands k (kindStep k T.alloc c a0 m.mem.count).2.slot y → MixedRel ch L Rep base live0 (Function.update ctx k slot') m' (Function.update b k y) := by
  obtain ⟨a, ha, hs⟩ := h.builtin
  obtain ⟨slot', mem', e, hr⟩ := builtin_call hT k c n (restrict ch ctx) m.mem a hv ha
  rw [restrict, if_pos hk] at e
  refine ⟨a k, slot', { m with mem := mem' }, hs k hk, fun h0 msg h1 => ?_, ?_, fun y hy => ⟨⟨_, by rw [restrict_builtin hk]; exact hr, fun j hj => ?_⟩, fun j B hj => ?_, h.others⟩⟩
  · have := ha.1.1 k
    rw [h1] at this
    revert this
    cases restrict ch ctx k with
    | none => exact False.elim
    | some q => exact fun h => h.2.1
  · simp only [Contexts.mixed, hk, e, Res.ok_bind, Res.pure_eq]
  · by_cases hjk : j = k
    · subst hjk
      simpa using hy
    · rw [Function.update_of_ne hjk, Function.update_of_ne hjk]
      exact hs j hj
  · have hjk : j ≠ k := by
      rintro rfl
      rw [hk] at hj
      cases hj
    rw [Function.update_of_ne hjk, Function.update_of_ne hjk]
    exact h.crypto j B hj

/-- The part of a call of the library. -/
theorem mixed_crypto {T : Tool} {ctx : Kind → Option Nat} {m : MixedMem L} {b : Msgs} (h : MixedRel ch L Rep base live0 ctx m b) (k : Kind) (B : Backend) (hk : ch k = .crypto B) (c : ApiCall) (n : Nat)
    (r : Reply) (slot' : Option Nat) (s' : BSt (L k).State) (e : bStep B (L k) k.hashSize T.alloc c (ctx k) ⟨m.mem.count, m.calls, m.live k⟩ = .ok (r, slot', s')) (hn : m.mem.count ≤ s'.count) :
    ∃ m', (Contexts.mixed ch L T).call k c n (ctx k) m = .ok (r, slot', m') ∧
      ∀ y, CryptoRel B (Rep k) (live0 k) slot' s'.live y → MixedRel ch L Rep base live0 (Function.update ctx k slot') m' (Function.update b k y) := by
  refine ⟨{ mem := { m.mem with count := s'.count }, calls := s'.calls, live := Function.update m.live k s'.live }, by simp only [Contexts.mixed, hk, e, Res.ok_bind, Res.pure_eq],
    fun y hy => ⟨?_, fun j B' hj => ?_, fun j hj => ?_⟩⟩
  · obtain ⟨a, ha, hs⟩ := h.builtin
    refine ⟨a, ?_, fun j hj => ?_⟩
    · rw [restrict_crypto (by rw [hk]; simp)]
      exact ctxRel_count ha _ hn
    · have hjk : j ≠ k := by
        rintro rfl
        rw [hk] at hj
        cases hj
      rw [Function.update_of_ne hjk]
      exact hs j hj
  · by_cases hjk : j = k
    · subst hjk
      rw [hk] at hj
      cases hj
      simpa only [Function.update_self] using hy
    · simp only [Function.update_of_ne hjk]
      exact h.crypto j B' hj
  · have hjk : j ≠ k := by
      rintro rfl
      rw [hk] at hj
      cases hj
    simp only [Function.update_of_ne hjk]
    exact h.others j hj

theorem maxOutput_ge (B : Backend) (k : Kind) : k.hashSize ≤ B.maxOutput := by
  cases B <;> cases k <;> simp only [Backend.maxOutput] <;> decide

/-- Every build obeys the law. -/
theorem mixed_law {T : Tool} (hT : T.Ok) (hL : ∀ k, ch k ≠ .builtin → Contract (L k) k (Rep k)) (htame : ∀ k, ch k ≠ .builtin → Tame (L k) k.hashSize) (limit : Nat)
    (hlim : ∀ k B, ch k = .crypto B → limit ≤ B.maxUpdate) :
    Law (Contexts.mixed ch L T) T (∀ k, ch k ≠ .builtin → Reliable (L k)) limit (MixedRel ch L Rep base live0) where
  width := ⟨show 17 ≤ 64 by decide, Nat.le_refl _⟩
  null := MixedRel.null
  attempt {ctx m b} h := by
    obtain ⟨a, ha, hs⟩ := h.builtin
    exact ⟨⟨a, ctxRel_count ha _ (Nat.le_succ _), hs⟩, h.crypto, h.others⟩
  init {ctx m b} h k n := by
    cases hk : ch k with
    | builtin =>
      obtain ⟨a0, slot', m', hs, -, e, hr⟩ := mixed_builtin hT h k hk .init n trivial
      refine ⟨_, slot', m', e, ?_, ?_⟩
      · revert hs hr
        cases a0 with
        | some x =>
          intro hs hr
          refine .inr ⟨by simp [kindStep, Spec.apiStep], ?_⟩
          have := hr (b k) (by simpa [kindStep, Spec.apiStep] using hs)
          rwa [Function.update_eq_self] at this
        | none =>
          intro hs hr
          have hb : b k = none := by
            revert hs
            cases b k <;> simp [Stands]
          by_cases hal : T.alloc m.mem.count = true
          · refine .inl ⟨by simp [kindStep, Spec.apiStep, hal], hb, hr _ ?_⟩
            simp [kindStep, Spec.apiStep, hal, Stands]
          · refine .inr ⟨by simp [kindStep, Spec.apiStep, hal], ?_⟩
            have := hr none (by simp [kindStep, Spec.apiStep, hal, Stands])
            rwa [← hb, Function.update_eq_self] at this
      · intro hb hal _
        rw [hb] at hs
        have : a0 = none := by
          revert hs
          cases a0 <;> simp [Stands]
        rw [this]
        simp [kindStep, Spec.apiStep, hal]
    | crypto B =>
      have hc := h.crypto k B hk
      cases hctx : ctx k with
      | some p =>
        have hb : b k ≠ none := fun hb => by rw [(h.null k).mpr hb] at hctx; cases hctx
        obtain ⟨m', e, hr⟩ := mixed_crypto (T := T) h k B hk .init n ⟨-1, none⟩ (some p) ⟨m.mem.count, m.calls, m.live k⟩ (by rw [hctx]; rfl) (Nat.le_refl _)
        rw [hctx] at e
        refine ⟨_, _, m', e, .inr ⟨by decide, ?_⟩, fun h1 => absurd h1 hb⟩
        have := hr (b k) (by rw [← hctx]; exact hc)
        rwa [Function.update_eq_self] at this
      | none =>
        have hb : b k = none := (h.null k).mp hctx
        rw [hctx, hb] at hc
        have hc : m.live k = live0 k := hc
        obtain ⟨r, slot, s', e, hcnt, hr⟩ := bInitialize_ok B (L k) T.alloc ⟨m.mem.count, m.calls, m.live k⟩
        obtain ⟨m', e', hr'⟩ := mixed_crypto (T := T) h k B hk .init n ⟨r, none⟩ slot s' (by rw [hctx]; simp only [bStep, e, Res.ok_bind, Res.pure_eq]) (by rw [hcnt]; simp)
        rw [hctx] at e'
        refine ⟨_, _, m', e', ?_, fun _ h2 h3 => ?_⟩
        · rcases hr with ⟨rfl, -, p, st, i, rfl, hi, hH⟩ | ⟨rfl, rfl, hl, -⟩
          · refine .inl ⟨rfl, hb, hr' _ ⟨st, ?_, ?_⟩⟩
            · rw [← hc]
              exact hH
            · intro msg hm _
              cases hm
              exact (hL k (by rw [hk]; simp)).init i st hi
          · refine .inr ⟨by decide, ?_⟩
            have := hr' none (show s'.live = live0 k by rw [hl]; exact hc)
            rwa [← hb, Function.update_eq_self] at this
        · rcases hr with ⟨rfl, -⟩ | ⟨-, -, -, h4 | h4⟩
          · rfl
          · rw [h2] at h4; cases h4
          · exact absurd (h3 k (by rw [hk]; simp)) h4
  update {ctx m b} h k n x buffer size hb h0 hs hl := by
    replace hs : size ≤ ssizeMax := hs
    cases hk : ch k with
    | builtin =>
      obtain ⟨a0, slot', m', hst, -, e, hr⟩ := mixed_builtin hT h k hk (.update (some buffer) size) n (fun _ => hl)
      rw [hb] at hst
      obtain ⟨⟨h0', msg⟩, rfl⟩ : ∃ y, a0 = some y := by
        revert hst
        cases a0 <;> simp [Stands]
      refine ⟨_, slot', m', x.map (· ++ buffer.take size), e, hr _ ?_, fun _ => rfl, fun _ _ => ?_⟩
      · simp only [kindStep, Spec.apiStep, maxSize_eq, hs]
        intro y hy
        cases x with
        | none => cases hy
        | some x =>
          obtain ⟨g1, g2⟩ := hst x rfl
          simp only [Option.map_some, Option.some.injEq] at hy
          exact ⟨g1, by rw [g2, hy]⟩
      · simp [kindStep, Spec.apiStep, maxSize_eq, hs]
    | crypto B =>
      have hc := h.crypto k B hk
      obtain ⟨p, hp⟩ : ∃ p, ctx k = some p := Option.ne_none_iff_exists'.mp (fun hn => by rw [(h.null k).mp hn] at hb; cases hb)
      rw [hp, hb] at hc
      obtain ⟨st, hH, hacc⟩ := hc
      obtain ⟨r, s', st', e, hcnt, hH', hcase⟩ := bUpdate_ok (s := ⟨m.mem.count, m.calls, m.live k⟩) hH (some buffer) size (fun _ => hl)
      obtain ⟨m', e', hr'⟩ := mixed_crypto (T := T) h k B hk (.update (some buffer) size) n ⟨r, none⟩ (some p) s' (by rw [hp]; simp only [bStep, e, Res.ok_bind, Res.pure_eq]) (by rw [hcnt])
      rw [← hp] at hr'
      refine ⟨⟨r, none⟩, ctx k, m', if r = 1 then x.map (· ++ buffer.take size) else none, by rw [← hp] at e'; exact e', hr' _ ?_, fun h1 => if_pos h1, fun hg hl2 => ?_⟩
      · rw [hp]
        refine ⟨st', hH', fun msg hm hlen => ?_⟩
        rcases hcase with ⟨rfl, -⟩ | ⟨-, -, h2, -⟩ | ⟨b', i, hb', -, hmax, hr1, hst'⟩
        · cases hm
        · omega
        · cases hb'
          by_cases hok : (L k |>.update i st (buffer.take size)).1 = true
          · rw [if_pos hok] at hr1
            subst hr1
            rw [if_pos rfl] at hm
            cases x with
            | none => cases hm
            | some y =>
              simp only [Option.map_some, Option.some.injEq] at hm
              subst hm
              rw [hst']
              refine (hL k (by rw [hk]; simp)).update i st y (buffer.take size) (hacc y rfl ?_) hlen hok
              rw [List.length_append] at hlen
              omega
          · rw [if_neg hok] at hr1
            subst hr1
            cases hm
      · have hm := hlim k B hk
        rcases hcase with ⟨-, -, h3 | h3⟩ | ⟨-, -, -, h3, -⟩ | ⟨b', i, -, -, -, h3, -⟩
        · cases h3
        · omega
        · exact h3
        · rw [(hg k (by rw [hk]; simp)).update, if_pos rfl] at h3
          exact h3
  finalize {ctx m b} h k n x o hb ho := by
    cases hk : ch k with
    | builtin =>
      obtain ⟨a0, slot', m', hst, hlen0, e, hr⟩ := mixed_builtin hT h k hk (.finalize (some o) k.hashSize) n (fun _ => by rw [ho])
      rw [hb] at hst
      obtain ⟨⟨h0', msg⟩, rfl⟩ : ∃ y, a0 = some y := by
        revert hst
        cases a0 <;> simp [Stands]
      have hsz : k.hashSize ≤ ssizeMax := by cases k <;> decide
      have hh0 := hlen0 h0' msg rfl
      rw [algOf_nHash] at hh0
      have hlen : (k.len64.digestFrom h0' msg).length = k.hashSize := digestFrom_length k h0' msg hh0
      have hstep : (kindStep k T.alloc (.finalize (some o) k.hashSize) (some (h0', msg)) m.mem.count).1 = ⟨1, some (k.len64.digestFrom h0' msg)⟩ ∧
          (kindStep k T.alloc (.finalize (some o) k.hashSize) (some (h0', msg)) m.mem.count).2.slot = some (List.replicate k.words 0, []) := by
        simp [kindStep, Spec.apiStep, maxSize_eq, hsz, List.drop_eq_nil_of_le (Nat.le_of_eq ho)]
      rw [hstep.1] at e
      refine ⟨_, slot', m', _, e, hr _ ?_, rfl, hlen, fun _ y hy hl => ?_, fun _ => rfl⟩
      · rw [hstep.2]
        intro y hy
        cases hy
      · obtain ⟨rfl, rfl⟩ := hst y hy
        exact len64_digest k msg (lengthOk_of_lt k hl)
    | crypto B =>
      have hc := h.crypto k B hk
      obtain ⟨p, hp⟩ : ∃ p, ctx k = some p := Option.ne_none_iff_exists'.mp (fun hn => by rw [(h.null k).mp hn] at hb; cases hb)
      rw [hp, hb] at hc
      obtain ⟨st, hH, hacc⟩ := hc
      obtain ⟨r, out', s', st', e, hcnt, hH', hcase⟩ := bFinalize_ok (s := ⟨m.mem.count, m.calls, m.live k⟩) hH k.hashSize (some o) k.hashSize
      obtain ⟨m', e', hr'⟩ := mixed_crypto (T := T) h k B hk (.finalize (some o) k.hashSize) n ⟨r, out'⟩ (some p) s' (by rw [hp]; simp only [bStep, e, Res.ok_bind, Res.pure_eq]) (by rw [hcnt])
      rw [← hp] at hr'
      have hmax := maxOutput_ge B k
      rcases hcase with ⟨-, -, -, h3 | h3 | h3⟩ | ⟨o', i, ho', -, -, hr1, hout⟩
      · cases h3
      · omega
      · omega
      · cases ho'
        obtain ⟨d, hd, hfin⟩ := htame k (by rw [hk]; simp) i st o (by rw [ho])
        have hfin' : ((L k).final i st o).2.2 = d := by rw [hfin, List.drop_eq_nil_of_le (Nat.le_of_eq ho), List.append_nil]
        refine ⟨⟨r, out'⟩, ctx k, m', d, by rw [← hp] at e'; exact e', hr' _ ?_, by rw [hout, hfin'], hd, fun h1 msg hm hl => ?_, fun hg => ?_⟩
        · rw [hp]
          exact ⟨st', hH', fun msg hm => by cases hm⟩
        · have hok : ((L k).final i st o).1 = true := by
            by_contra hn
            rw [if_neg hn] at hr1
            simp only at h1
            omega
          have := (hL k (by rw [hk]; simp)).final i st msg o (hacc msg hm hl) hl (by rw [ho]) hok
          rw [hfin', List.drop_eq_nil_of_le (Nat.le_of_eq ho), List.append_nil] at this
          exact this
        · rw [hr1, (hg k (by rw [hk]; simp)).final]; rfl
  free {ctx m b} h k n x hb := by
    cases hk : ch k with
    | builtin =>
      obtain ⟨a0, slot', m', hst, -, e, hr⟩ := mixed_builtin hT h k hk .free n trivial
      exact ⟨_, slot', m', e, rfl, hr none trivial⟩
    | crypto B =>
      have hc := h.crypto k B hk
      obtain ⟨p, hp⟩ : ∃ p, ctx k = some p := Option.ne_none_iff_exists'.mp (fun hn => by rw [(h.null k).mp hn] at hb; cases hb)
      rw [hp, hb] at hc
      obtain ⟨st, hH, -⟩ := hc
      obtain ⟨s', e, hcnt, hl⟩ := bFree_ok (s := ⟨m.mem.count, m.calls, m.live k⟩) hH
      obtain ⟨m', e', hr'⟩ := mixed_crypto (T := T) h k B hk .free n ⟨1, none⟩ none s' (by rw [hp]; simp only [bStep, e, Res.ok_bind, Res.pure_eq]) (by rw [hcnt])
      exact ⟨_, _, m', e', rfl, hr' none hl⟩

/-- Before any context exists. -/
theorem mixed_start (m : MixedMem L) : MixedRel ch L Rep (fun w => (m.mem.live w).map (·.1)) m.live (fun _ => none) m (fun _ => none) := by
  refine ⟨⟨fun _ => none, ?_, fun _ _ => trivial⟩, fun _ _ _ => rfl, fun _ _ => rfl⟩
  have : restrict ch (fun _ => none) = fun _ => none := by funext k; simp [restrict]
  rw [this]
  exact ctxRel_empty (W := ⟨m.mem, []⟩) fun _ => List.Perm.refl _

/-- After all contexts are released. -/
theorem mixed_end {m : MixedMem L} (h : MixedRel ch L Rep base live0 (fun _ => none) m (fun _ => none)) : (∀ w, ((m.mem.live w).map (·.1)).Perm (base w)) ∧ ∀ k, m.live k = live0 k := by
  refine ⟨fun w => ?_, fun k => ?_⟩
  · obtain ⟨a, ha, -⟩ := h.builtin
    have : restrict ch (fun _ => none) = fun _ => none := by funext k; simp [restrict]
    rw [this] at ha
    have := ha.2 w
    rwa [show ctxKeys (fun _ => none) w = [] by simp [ctxKeys]] at this
  · cases hk : ch k with
    | builtin => exact h.others k hk
    | crypto B => exact h.crypto k B hk

end Model.Builds

import Verif.Model.Host
import Verif.Proofs.Calculate
import Verif.Proofs.Api
import Verif.Proofs.Hmac
/-! On a host with fewer bits the functions do what they do with 64 bits, as long as the sizes are at most `SSIZE_MAX` of the host. -/

namespace Model

open Spec (IterHash blocks ApiCall ApiState Reply AreaOk slice overwrite)

variable {w : Nat} {A : Alg w} {H : IterHash w} {enc : Nat → List Byte} {hb : Nat}

theorem hostPow (h1 : 16 ≤ hb) (h2 : hb ≤ 64) : 2 ^ 16 ≤ 2 ^ hb ∧ 2 ^ hb ≤ 2 ^ 64 ∧ 2 ^ hb = 2 * (hostMax hb + 1) := by
  refine ⟨Nat.pow_le_pow_right (by omega) h1, Nat.pow_le_pow_right (by omega) h2, ?_⟩
  unfold hostMax
  obtain ⟨k, rfl⟩ : ∃ k, hb = k + 1 := ⟨hb - 1, by omega⟩
  have : 0 < 2 ^ k := Nat.pow_pos (by omega)
  rw [Nat.add_sub_cancel, Nat.sub_add_cancel this, Nat.pow_succ]
  omega

theorem hostSub_eq {a b : Nat} (h : b ≤ a) (ha : a < 2 ^ hb) : hostSub hb a b = a - b := by
  unfold hostSub
  rw [Nat.mod_eq_of_lt (show b < 2 ^ hb by omega), show a + (2 ^ hb - b) = (a - b) + 2 ^ hb by omega, Nat.add_mod_right, Nat.mod_eq_of_lt (by omega)]

theorem hostAdd_eq {a b : Nat} (h : a + b < 2 ^ hb) : hostAdd hb a b = a + b := Nat.mod_eq_of_lt h

theorem hostInt_eq {a : Nat} (h : 2 * a < 2 ^ hb) : hostInt hb a = a := by
  unfold hostInt
  rw [BitVec.toInt_eq_toNat_of_lt (by rw [BitVec.toNat_ofNat, Nat.mod_eq_of_lt (by omega)]; exact h), BitVec.toNat_ofNat, Nat.mod_eq_of_lt (by omega)]

theorem hostLoop_eq (h2 : hb ≤ 64) (u : Bool) (buf : List Byte) : ∀ (fuel size off : Nat) (hv : List (BitVec w)) (scr : Scr w), size < 2 ^ hb →
    hostLoop hb A u buf fuel size off hv scr = transformLoop A u buf fuel size off hv scr := by
  have h64 : 2 ^ hb ≤ 2 ^ 64 := Nat.pow_le_pow_right (by omega) h2
  intro fuel
  induction fuel with
  | zero =>
    intro size off hv scr _
    unfold hostLoop transformLoop
    rfl
  | succ fuel ih =>
    intro size off hv scr hs
    unfold hostLoop transformLoop
    by_cases h : A.blockSize ≤ size
    · rw [if_pos h, if_pos h]
      dsimp only
      rw [hostSub_eq h hs, szSub_eq h (by omega)]
      congr 1
      funext x
      exact ih _ _ _ _ (by omega)
    · rw [if_neg h, if_neg h]

theorem hostTransform_eq (h1 : 16 ≤ hb) (h2 : hb ≤ 64) (L : Lawful A H enc) (u : Bool) (scr : Scr w) (c : Ctx w) (buf : List Byte) (size : Nat)
    (hs : size ≤ hostMax hb) (hbuf : size ≤ buf.length) (hhv : c.hashValues.length = A.nHash) (hscr : ScrOk A scr) :
    hostTransform hb A u scr (some c) (some buf) size = transform A u scr (some c) (some buf) size := by
  obtain ⟨p1, p2, p3⟩ := hostPow h1 h2
  have hsm : hostMax hb ≤ ssizeMax := by unfold ssizeMax; omega
  have hB : 0 < A.blockSize := by rcases L.size with h | h <;> omega
  unfold hostTransform transform
  dsimp only
  rw [if_neg (by omega), if_neg (by omega), hostLoop_eq h2 _ _ _ _ _ _ _ (by omega)]
  obtain ⟨scr', e, -⟩ := transformLoop_ok L u buf (size / A.blockSize) (size + 1) size 0 c.hashValues scr rfl
    (by have := Nat.div_le_self size A.blockSize; omega) (by omega) (by omega) hhv hscr
  rw [e]
  simp only [Res.ok_bind]
  have : size / A.blockSize * A.blockSize ≤ size := Nat.div_mul_le_self _ _
  rw [hostInt_eq (by omega)]

theorem hostFill_eq (h1 : 16 ≤ hb) (h2 : hb ≤ 64) (L : Lawful A H enc) {h0 m} (hh0 : h0.length = A.nHash) (u : Bool) (scr : Scr w) (hscr : ScrOk A scr) (c : Ctx w) (b : List Byte) (n : Nat)
    (hs : n ≤ hostMax hb) (hbuf : n ≤ b.length) (hr : Rep A H h0 m c) : hostFill hb A u scr c b n = updateFill A u scr c b n := by
  obtain ⟨p1, p2, p3⟩ := hostPow h1 h2
  have hB : 0 < A.blockSize ∧ A.blockSize ≤ 128 := by rcases L.size with h | h <;> omega
  obtain ⟨p, r, rfl, g1, g2, g3, g4, g5, g6, g7⟩ := hr
  unfold hostFill updateFill
  by_cases hpos : 0 < c.blockOffset
  · rw [if_pos hpos, if_pos hpos, if_neg (by omega), if_neg (by omega), hostSub_eq (by omega) (by omega), szSub_eq (by omega) (by omega)]
    have hrem : (if n < A.blockSize - c.blockOffset then n else A.blockSize - c.blockOffset) = min n (A.blockSize - c.blockOffset) := by
      split <;> omega
    simp only [hrem]
    generalize hk : min n (A.blockSize - c.blockOffset) = k
    rw [memCopy_ok (by omega) (by omega), Res.ok_bind, Res.ok_bind, hostAdd_eq (by omega)]
    by_cases hlt : c.blockOffset + k < A.blockSize
    · rw [if_pos hlt, if_pos hlt]
    · rw [if_neg hlt, if_neg hlt]
      rw [hostTransform_eq h1 h2 L u scr _ _ A.blockSize (by omega) (by simp; omega) (by simp only [g3]; exact chain_len L _ _ hh0) hscr,
        hostSub_eq (by omega) (by omega), szSub_eq (by omega) (by omega)]
      rfl
  · rw [if_neg hpos, if_neg hpos]

theorem hostBulk_eq (h1 : 16 ≤ hb) (h2 : hb ≤ 64) (L : Lawful A H enc) {h0 m} (hh0 : h0.length = A.nHash) (u : Bool) (scr : Scr w) (hscr : ScrOk A scr) (c : Ctx w) (b : List Byte) (o n : Nat)
    (hs : o + n ≤ hostMax hb) (hbuf : o + n ≤ b.length) (hr : Rep A H h0 m c) : hostBulk hb A u scr c b o n = updateBulk A u scr c b o n := by
  obtain ⟨p1, p2, p3⟩ := hostPow h1 h2
  have hsm : hostMax hb ≤ ssizeMax := by unfold ssizeMax; omega
  obtain ⟨p, r, rfl, g1, g2, g3, g4, g5, g6, g7⟩ := hr
  unfold hostBulk updateBulk
  split
  · rw [ptrAt_ok (by omega), Res.ok_bind, Res.ok_bind]
    have hhv : c.hashValues.length = A.nHash := by rw [g3]; exact chain_len L _ _ hh0
    rw [hostTransform_eq h1 h2 L u scr c (b.drop o) n (by omega) (by simp; omega) hhv hscr]
    obtain ⟨scr', e, -⟩ := transform_ok L u scr c (b.drop o) n (by omega) (by simp; omega) hhv hscr
    have hle : n / A.blockSize * A.blockSize ≤ n := Nat.div_mul_le_self _ _
    rw [e, Res.ok_bind, Res.ok_bind]
    simp only
    rw [Int.toNat_natCast, hostAdd_eq (by omega), hostSub_eq hle (by omega), szSub_eq hle (by omega)]
  · rfl

theorem hostUpdate_eq (h1 : 16 ≤ hb) (h2 : hb ≤ 64) (L : Lawful A H enc) {h0 m} (hh0 : h0.length = A.nHash) (u : Bool) (scr : Scr w) (hscr : ScrOk A scr) (c : Ctx w) (b : List Byte) (n : Nat)
    (hs : n ≤ hostMax hb) (hbuf : n ≤ b.length) (hr : Rep A H h0 m c) : hostUpdate hb A u scr (some c) (some b) n = ctxUpdate A u scr (some c) (some b) n := by
  obtain ⟨p1, p2, p3⟩ := hostPow h1 h2
  have hsm : hostMax hb ≤ ssizeMax := by unfold ssizeMax; omega
  unfold hostUpdate ctxUpdate
  simp only
  rw [if_neg (show ¬hostMax hb < n by omega), if_neg (show ¬ssizeMax < n by omega)]
  by_cases hz : n = 0
  · rw [if_pos hz, if_pos hz]
  · rw [if_neg hz, if_neg hz, hostFill_eq h1 h2 L hh0 u scr hscr c b n hs hbuf hr]
    rcases updateFill_ok L hh0 u scr hscr c b n (by omega) hbuf hr with ⟨c', e, h⟩ | ⟨c1, k, hk, e, h, ho⟩
    · rw [e, Res.ok_bind, Res.ok_bind]
    · rw [e, Res.ok_bind, Res.ok_bind]
      simp only
      rw [hostBulk_eq h1 h2 L hh0 u scr hscr c1 b k (n - k) (by omega) (by omega) h]

theorem hostFinalize_eq (h1 : 16 ≤ hb) (h2 : hb ≤ 64) (L : Lawful A H enc) {h0 m} (hh0 : h0.length = A.nHash) (u : Bool) (scr : Scr w) (hscr : ScrOk A scr) (c : Ctx w) (h : List Byte) (n : Nat)
    (hs : n ≤ hostMax hb) (hr : Rep A H h0 m c) : hostFinalize hb A u scr (some c) (some h) n = ctxFinalize A u scr (some c) (some h) n := by
  obtain ⟨p1, p2, p3⟩ := hostPow h1 h2
  have hsm : hostMax hb ≤ ssizeMax := by unfold ssizeMax; omega
  have hB : 0 < A.blockSize ∧ A.blockSize ≤ 128 ∧ 9 ≤ A.blockSize := by rcases L.size with h | h <;> omega
  obtain ⟨p, r, rfl, g1, g2, g3, g4, g5, g6, g7⟩ := hr
  unfold hostFinalize ctxFinalize
  dsimp only
  by_cases hsmall : n < A.hashSize
  · rw [if_pos hsmall, if_pos hsmall]
  · rw [if_neg hsmall, if_neg hsmall, if_neg (show ¬hostMax hb < n by omega), if_neg (show ¬ssizeMax < n by omega), g5, g4]
    generalize hnb : (if A.padLimit < r.length then 1 + 1 else 1) = nb
    obtain ⟨b1, b2, b3, e1, e2, e3, hl, hp⟩ := finalBlock L g1 g2 c.block g6 g7 nb hnb.symm
    have hnb2 : nb = 1 ∨ nb = 2 := by rw [← hnb]; split <;> simp
    have hnbB : A.blockSize ≤ nb * A.blockSize ∧ nb * A.blockSize ≤ 2 * A.blockSize := by rcases hnb2 with rfl | rfl <;> omega
    rw [Nat.mod_eq_of_lt (show nb * A.blockSize < 2 ^ hb by omega), hostSub_eq (show r.length ≤ nb * A.blockSize by omega) (by omega),
      hostSub_eq (show 8 ≤ nb * A.blockSize by omega) (by omega), ← szSub_eq (show r.length ≤ nb * A.blockSize by omega) (by omega),
      e1, Res.ok_bind, Res.ok_bind, e2, Res.ok_bind, Res.ok_bind, e3, Res.ok_bind, Res.ok_bind]
    rw [hostTransform_eq h1 h2 L u scr _ _ (nb * A.blockSize) (by omega) (by omega) (by simp only [g3]; exact chain_len L _ _ hh0) hscr]
    rfl

/-! ## Heap -/

theorem hostHUpdate_eq (h1 : 16 ≤ hb) (h2 : hb ≤ 64) (L : Lawful A H enc) {h0 m} (hh0 : h0.length = A.nHash) (u : Bool) (env : Env w) (hscr : ScrOk A env.scr) (s : St w) (p : Nat) (c : Ctx w)
    (hl : getKey p s.live = some (.ctx c)) (hr : Rep A H h0 m c) (buf : Option (List Byte)) (n : Nat) (hs : n ≤ hostMax hb) (hbuf : ∀ b, buf = some b → n ≤ b.length) :
    hostHUpdate hb A u env (some p) buf n s = hUpdate A u env (some p) buf n s := by
  unfold hostHUpdate hUpdate
  simp only [hl]
  cases buf with
  | none => rfl
  | some b => rw [hostUpdate_eq h1 h2 L hh0 u env.scr hscr c b n hs (hbuf b rfl) hr]; rfl

theorem hostHFinalize_eq (h1 : 16 ≤ hb) (h2 : hb ≤ 64) (L : Lawful A H enc) {h0 m} (hh0 : h0.length = A.nHash) (u : Bool) (env : Env w) (hscr : ScrOk A env.scr) (s : St w) (p : Nat) (c : Ctx w)
    (hl : getKey p s.live = some (.ctx c)) (hr : Rep A H h0 m c) (o : Option (List Byte)) (n : Nat) (hs : n ≤ hostMax hb) :
    hostHFinalize hb A u env (some p) o n s = hFinalize A u env (some p) o n s := by
  unfold hostHFinalize hFinalize
  simp only [hl]
  cases o with
  | none => rfl
  | some h => rw [hostFinalize_eq h1 h2 L hh0 u env.scr hscr c h n hs hr]; rfl

theorem hostHUpdate_big (h1 : 16 ≤ hb) (h2 : hb ≤ 64) (A : Alg w) (u : Bool) (env : Env w) (s : St w) (p : Nat) (c : Ctx w) (hl : getKey p s.live = some (.ctx c))
    (buf buf' : Option (List Byte)) (n : Nat) (hs : hostMax hb < n) : hostHUpdate hb A u env (some p) buf n s = hUpdate A u env (some p) buf' (2 ^ 63) s := by
  unfold hostHUpdate hUpdate
  simp only [hl]
  cases buf <;> cases buf' <;> simp [hostUpdate, ctxUpdate, hs, ssizeMax]

theorem hostHFinalize_big (L : Lawful A H enc) (h1 : 16 ≤ hb) (h2 : hb ≤ 64) (u : Bool) (env : Env w) (s : St w) (p : Nat) (c : Ctx w) (rest : List (Nat × Obj w))
    (hl : s.live = (p, .ctx c) :: rest) (o : Option (List Byte)) (n : Nat) (hs : hostMax hb < n) : hostHFinalize hb A u env (some p) o n s = .ok (-1, o, s) := by
  have he : ({ s with live := (p, .ctx c) :: rest } : St w) = s := by rw [← hl]
  obtain ⟨p1, p2, p3⟩ := hostPow h1 h2
  have hh := L.hashLe
  have hB : A.blockSize ≤ 128 := by rcases L.size with h | h <;> omega
  cases o with
  | none => simp [hostHFinalize, hl, getKey, hostFinalize, setKey, he]
  | some b => simp [hostHFinalize, hl, getKey, hostFinalize, setKey, he, hs, show ¬ n < A.hashSize by omega]

/-- A size as the other models see it: one that is too large on the host becomes one that is too large there. -/
def clip (hb n : Nat) : Nat := if n ≤ hostMax hb then n else 2 ^ 63

theorem clip_le {n : Nat} (h : n ≤ hostMax hb) : clip hb n = n := if_pos h

theorem clip_gt {n : Nat} (h : ¬ n ≤ hostMax hb) : clip hb n = 2 ^ 63 := if_neg h

/-- A call as the other models see it. -/
def clipCall (hb : Nat) : ApiCall → ApiCall
  | .update b n => .update b (clip hb n)
  | .finalize o n => .finalize o (clip hb n)
  | c => c

theorem hostStep_eq (h1 : 16 ≤ hb) (h2 : hb ≤ 64) (L : Lawful A H enc) (u : Bool) (env : Env w) (live0 : List (Nat × Obj w)) (call : ApiCall) (scr : Scr w) (slot : Option Nat) (s : St w)
    (a : ApiState w) (hv : (clipCall hb call).Valid) (hscr : ScrOk A scr) (hrel : ApiRel A H live0 slot s a) :
    hostStep hb A u env call scr slot s = step A u env (clipCall hb call) scr slot s := by
  obtain ⟨p1, p2, p3⟩ := hostPow h1 h2
  have hsm : hostMax hb ≤ Spec.maxSize := by unfold Spec.maxSize; omega
  obtain ⟨hatt, hrel⟩ := hrel
  cases call with
  | init => rfl
  | initNull => rfl
  | free => rfl
  | freeNull => rfl
  | update b n =>
    simp only [hostStep, step, clipCall]
    cases slot with
    | none => rfl
    | some p =>
      match ha : a.slot, hrel with
      | some (h0, m), hrel =>
        simp only [ha] at hrel
        obtain ⟨-, hh0, c, hl, hr⟩ := hrel
        by_cases hn : n ≤ hostMax hb
        · simp only [clipCall, clip_le hn] at hv ⊢
          rw [hostHUpdate_eq h1 h2 L hh0 u _ hscr s p c (by simp [hl, getKey]) hr b n hn (by rintro b rfl; exact hv (by omega))]
        · rw [clip_gt hn, hostHUpdate_big h1 h2 A u _ s p c (by simp [hl, getKey]) b b n (by omega)]
      | none, hrel => simp [ha] at hrel
  | finalize o n =>
    simp only [hostStep, step, clipCall]
    cases slot with
    | none => rfl
    | some p =>
      match ha : a.slot, hrel with
      | some (h0, m), hrel =>
        simp only [ha] at hrel
        obtain ⟨-, hh0, c, hl, hr⟩ := hrel
        by_cases hn : n ≤ hostMax hb
        · rw [clip_le hn, hostHFinalize_eq h1 h2 L hh0 u _ hscr s p c (by simp [hl, getKey]) hr o n hn]
        · rw [clip_gt hn, hostHFinalize_big L h1 h2 u _ s p c live0 hl o n (by omega), hFinalize_bad A u _ s p c live0 o _ hl (.inr (.inr (by unfold ssizeMax; omega)))]
      | none, hrel => simp [ha] at hrel

theorem hostRun_eq (h1 : 16 ≤ hb) (h2 : hb ≤ 64) (L : Lawful A H enc) (u : Bool) (env : Env w) (live0 : List (Nat × Obj w)) :
    ∀ (calls : List (ApiCall × Scr w)) (slot : Option Nat) (s : St w) (a : ApiState w),
      (∀ c ∈ calls, (clipCall hb c.1).Valid ∧ ScrOk A c.2) → ApiRel A H live0 slot s a →
      hostRun hb A u env calls slot s = run A u env (calls.map fun c => (clipCall hb c.1, c.2)) slot s
  | [], slot, s, a, _, hrel => rfl
  | (c, scr) :: cs, slot, s, a, hv, hrel => by
    obtain ⟨v1, v2⟩ := hv (c, scr) (by simp)
    obtain ⟨slot1, s1, e1, r1, -, -⟩ := step_ok L u env live0 (clipCall hb c) scr slot s a v1 v2 hrel
    simp only [hostRun, run, List.map_cons]
    rw [hostStep_eq h1 h2 L u env live0 c scr slot s a v1 v2 hrel, e1, Res.ok_bind, Res.ok_bind]
    dsimp only
    rw [hostRun_eq h1 h2 L u env live0 cs slot1 s1 _ (fun x hx => hv x (by simp [hx])) r1]

/-! ## One-shot functions -/

theorem clip_area (hsm : hostMax hb ≤ ssizeMax) {mem : List Byte} {p : Option Nat} {n : Nat} (h : AreaOk mem p (clip hb n)) (hn : n ≤ hostMax hb) {i : Nat} (hp : p = some i) :
    (slice mem i n).length = n := by
  rw [clip_le hn] at h
  exact slice_length (h i hp (by unfold ssizeMax at hsm; omega))

theorem hostCalculate_eq (h1 : 16 ≤ hb) (h2 : hb ≤ 64) (L : Lawful A H enc) (u : Bool) (env : Env w) (hscr : ScrOk A env.scr) (buffer : Option Nat) (size : Nat) (hash : Option Nat) (hashSize : Nat)
    (s : St w) (hbuf : AreaOk s.caller buffer (clip hb size)) :
    hostCalculate hb A u env buffer size hash hashSize s = calculate A u env buffer (clip hb size) hash (clip hb hashSize) s := by
  obtain ⟨p1, p2, p3⟩ := hostPow h1 h2
  have hsm : hostMax hb ≤ ssizeMax := by unfold ssizeMax; omega
  unfold hostCalculate calculate
  cases h : env.allocOk s.count with
  | false => rw [hInitialize_fail A env s h]; rfl
  | true =>
    obtain ⟨c, e, hr⟩ := hInitialize_ok L env s h
    rw [e]
    simp only [Res.ok_bind, ne_eq, not_true_eq_false, if_false]
    by_cases hn : size ≤ hostMax hb
    · have hlen := fun i (hi : buffer = some i) => clip_area hsm hbuf hn hi
      rw [clip_le hn] at hbuf ⊢
      rw [hostHUpdate_eq h1 h2 L (ivLen L) u env hscr _ s.count c (by simp [getKey]) hr _ size hn (by
        cases buffer with
        | none => simp [region]
        | some i => rintro b hb'; simp only [region_some, Option.some.injEq] at hb'; subst hb'; exact Nat.le_of_eq (hlen i rfl).symm)]
      cases buffer with
      | none =>
        rw [hUpdate_bad A u env _ s.count c s.live (region { s with count := s.count + 1, live := (s.count, .ctx c) :: s.live } none size) _ rfl (.inl rfl)]
        rfl
      | some i =>
        obtain ⟨c', e', hr'⟩ := hUpdate_ok L u env hscr { s with count := s.count + 1, live := (s.count, .ctx c) :: s.live } s.count c s.live [] (slice s.caller i size) size rfl hr (by omega) (hlen i rfl)
        rw [region_some, e']
        simp only [Res.ok_bind, not_true_eq_false, if_false]
        by_cases hm : hashSize ≤ hostMax hb
        · rw [clip_le hm, hostHFinalize_eq h1 h2 L (ivLen L) u env hscr _ s.count c' (by simp [getKey]) hr' _ hashSize hm]
        · rw [clip_gt hm, hostHFinalize_big L h1 h2 u env _ s.count c' s.live rfl _ hashSize (by omega),
            hFinalize_bad A u env _ s.count c' s.live _ _ rfl (.inr (.inr (by unfold ssizeMax; omega)))]
          simp only [Res.ok_bind, setRegion_same]
    · rw [clip_gt hn, hostHUpdate_big h1 h2 A u env _ s.count c (by simp [getKey]) _ (region { s with count := s.count + 1, live := (s.count, .ctx c) :: s.live } buffer (2 ^ 63)) size (by omega),
        hUpdate_bad A u env _ s.count c s.live _ _ rfl (.inr (by unfold ssizeMax; omega))]
      rfl

theorem hostHmacKey_eq (h1 : 16 ≤ hb) (h2 : hb ≤ 64) (L : Lawful A H enc) (u : Bool) (env : Env w) (hscr : ScrOk A env.scr) (k keySize : Nat) (l : Loc) (s : St w)
    (hc : l.context = none) (hks : keySize ≤ hostMax hb) (hbuf : k + keySize ≤ s.caller.length) :
    hostHmacKey hb A u env (some k) keySize l s = hmacKey A u env (some k) keySize l s := by
  obtain ⟨p1, p2, p3⟩ := hostPow h1 h2
  have hsm : hostMax hb ≤ ssizeMax := by unfold ssizeMax; omega
  have hB : A.hmacBlockSize ≤ 128 := by rw [L.hmacBs]; rcases L.size with h | h <;> omega
  have hh := L.hashLe
  rw [← L.hmacBs] at hh
  obtain ⟨cx, kd, i, o, kh⟩ := l
  simp only at hc
  subst hc
  unfold hostHmacKey hmacKey
  cases h : env.allocOk s.count with
  | false => rw [allocBytes_fail env _ s h]
  | true =>
    obtain ⟨d, hd, e⟩ := allocBytes_ok env A.hmacBlockSize s h
    rw [e]
    dsimp only
    by_cases hk : keySize ≤ A.hmacBlockSize
    · rw [if_pos hk, if_pos hk, hostSub_eq hk (by omega), szSub_eq hk (by omega)]
      rfl
    · rw [if_neg hk, if_neg hk, hostSub_eq hh (by omega), szSub_eq hh (by omega)]
      cases h' : env.allocOk (s.count + 1) with
      | false => rw [hInitialize_fail A env _ h']; rfl
      | true =>
        obtain ⟨c, e1, hr⟩ := hInitialize_ok L env { s with count := s.count + 1, live := (s.count, .bytes d) :: s.live } h'
        rw [e1]
        simp only [Res.ok_bind, ne_eq, not_true_eq_false, if_false, region_some]
        have hl := slice_length hbuf
        rw [hostHUpdate_eq h1 h2 L (ivLen L) u env hscr _ (s.count + 1) c (by simp [getKey]) hr _ keySize hks (by
          rintro b hb'; simp only [Option.some.injEq] at hb'; subst hb'; exact Nat.le_of_eq hl.symm)]
        obtain ⟨c', e2, hr'⟩ := hUpdate_ok L u env hscr { s with count := s.count + 1 + 1, live := (s.count + 1, .ctx c) :: (s.count, .bytes d) :: s.live } (s.count + 1) c _ [] (slice s.caller k keySize) keySize rfl hr (by omega) hl
        rw [e2]
        simp only [Res.ok_bind, not_true_eq_false, if_false]
        rw [hostHFinalize_eq h1 h2 L (ivLen L) u env hscr _ (s.count + 1) c' (by simp [getKey]) hr' _ A.hashSize (by omega)]
        rfl

theorem hostHmacPass_eq (h1 : 16 ≤ hb) (h2 : hb ≤ 64) (L : Lawful A H enc) (u : Bool) (env : Env w) (hscr : ScrOk A env.scr) (p : Nat) (pd : List Byte) (buffer : Option Nat) (size : Nat)
    (hmac : Option Nat) (hmacSize : Nat) (l : Loc) (s : St w) (hc : l.context = none) (hp : p < s.count) (hg : getKey p s.live = some (.bytes pd))
    (hpd : pd.length = A.hmacBlockSize) (hbuf : AreaOk s.caller buffer (clip hb size)) :
    hostHmacPass hb A u env (some p) buffer size hmac hmacSize l s = hmacPass A u env (some p) buffer (clip hb size) hmac (clip hb hmacSize) l s := by
  obtain ⟨p1, p2, p3⟩ := hostPow h1 h2
  have hsm : hostMax hb ≤ ssizeMax := by unfold ssizeMax; omega
  have hB : A.hmacBlockSize ≤ 128 := by rw [L.hmacBs]; rcases L.size with h | h <;> omega
  obtain ⟨cx, kd, i, o, kh⟩ := l
  simp only at hc
  subst hc
  unfold hostHmacPass hmacPass
  cases h : env.allocOk s.count with
  | false => rw [hInitialize_fail A env s h]; rfl
  | true =>
    obtain ⟨c, e, hr⟩ := hInitialize_ok L env s h
    rw [e]
    have n1 : s.count ≠ p := by omega
    simp only [Res.ok_bind, ne_eq, not_true_eq_false, if_false, loadBytes, getKey, n1, hg]
    rw [hostHUpdate_eq h1 h2 L (ivLen L) u env hscr _ s.count c (by simp [getKey]) hr _ A.hmacBlockSize (by omega) (by
      rintro b hb'; simp only [Option.some.injEq] at hb'; subst hb'; omega)]
    obtain ⟨c2, e2, hr2⟩ := hUpdate_ok L u env hscr { s with count := s.count + 1, live := (s.count, .ctx c) :: s.live } s.count c _ [] pd _ rfl hr (by omega) hpd
    rw [e2]
    simp only [Res.ok_bind, not_true_eq_false, if_false]
    by_cases hn : size ≤ hostMax hb
    · have hlen := fun i (hi : buffer = some i) => clip_area hsm hbuf hn hi
      rw [clip_le hn] at hbuf ⊢
      rw [hostHUpdate_eq h1 h2 L (ivLen L) u env hscr _ s.count c2 (by simp [getKey]) hr2 _ size hn (by
        cases buffer with
        | none => simp [region]
        | some i => rintro b hb'; simp only [region_some, Option.some.injEq] at hb'; subst hb'; exact Nat.le_of_eq (hlen i rfl).symm)]
      cases buffer with
      | none =>
        rw [hUpdate_bad A u env _ s.count c2 s.live (region { s with count := s.count + 1, live := (s.count, .ctx c2) :: s.live } none size) _ rfl (.inl rfl)]
        rfl
      | some i =>
        obtain ⟨c', e', hr'⟩ := hUpdate_ok L u env hscr { s with count := s.count + 1, live := (s.count, .ctx c2) :: s.live } s.count c2 s.live _ (slice s.caller i size) size rfl hr2 (by omega) (hlen i rfl)
        rw [region_some, e']
        simp only [Res.ok_bind, not_true_eq_false, if_false]
        by_cases hm : hmacSize ≤ hostMax hb
        · rw [clip_le hm, hostHFinalize_eq h1 h2 L (ivLen L) u env hscr _ s.count c' (by simp [getKey]) hr' _ hmacSize hm]
        · rw [clip_gt hm, hostHFinalize_big L h1 h2 u env _ s.count c' s.live rfl _ hmacSize (by omega),
            hFinalize_bad A u env _ s.count c' s.live _ _ rfl (.inr (.inr (by unfold ssizeMax; omega)))]
          simp only [Res.ok_bind, setRegion_same]
    · rw [clip_gt hn, hostHUpdate_big h1 h2 A u env _ s.count c2 (by simp [getKey]) _ (region { s with count := s.count + 1, live := (s.count, .ctx c2) :: s.live } buffer (2 ^ 63)) size (by omega),
        hUpdate_bad A u env _ s.count c2 s.live _ _ rfl (.inr (by unfold ssizeMax; omega))]
      rfl

theorem hostHmacRest_eq (h1 : 16 ≤ hb) (h2 : hb ≤ 64) (L : Lawful A H enc) (u : Bool) (env : Env w) (hscr : ScrOk A env.scr) (buffer : Option Nat) (size : Nat) (hmac : Option Nat) (hmacSize : Nat)
    (K kh : List Byte) (a : Nat) (s : St w) (live0 : List (Nat × Obj w)) (hK : K.length = A.hmacBlockSize) (ha : a < s.count)
    (hl : s.live = (a, .bytes K) :: live0) (hbuf : AreaOk s.caller buffer (clip hb size)) (hh : AreaOk s.caller hmac (clip hb hmacSize)) :
    hostHmacRest hb A u env buffer size hmac hmacSize ⟨none, some a, none, none, kh⟩ s = hmacRest A u env buffer (clip hb size) hmac (clip hb hmacSize) ⟨none, some a, none, none, kh⟩ s := by
  obtain ⟨p1, p2, p3⟩ := hostPow h1 h2
  have hsm : hostMax hb ≤ ssizeMax := by unfold ssizeMax; omega
  obtain ⟨caller, count, live, freed⟩ := s
  simp only at ha hl hbuf hh
  subst hl
  have hKx : ∀ x : Byte, (K.map (· ^^^ x)).length = A.hmacBlockSize := by intro x; simpa using hK
  have hBs : A.hmacBlockSize ≤ 128 := by rw [L.hmacBs]; rcases L.size with h | h <;> omega
  have hhs : A.hashSize ≤ A.hmacBlockSize := by rw [L.hmacBs]; exact L.hashLe
  unfold hostHmacRest hmacRest
  cases g1 : env.allocOk count with
  | false => rw [hmacPads_fail1 env _ _ g1]; rfl
  | true =>
    cases g2 : env.allocOk (count + 1) with
    | false =>
      obtain ⟨d, hd, e⟩ := hmacPads_fail2 (A := A) env ⟨none, some a, none, none, kh⟩ ⟨caller, count, (a, .bytes K) :: live0, freed⟩ g1 g2
      rw [e]
      rfl
    | true =>
      rw [hmacPads_ok env _ _ a K live0 g1 g2 ha rfl hK rfl]
      simp only [Res.ok_bind, Bool.not_true, Bool.false_eq_true, if_false]
      rw [hostHmacPass_eq h1 h2 L u env hscr count (K.map (· ^^^ 0x36#8)) buffer size hmac hmacSize _ _ rfl (by simp only; omega) (by simp [getKey]) (hKx _) hbuf]
      cases g3 : env.allocOk (count + 2) with
      | false => rw [hmacPass_fail u env _ _ _ _ _ _ _ g3 rfl]; rfl
      | true =>
        by_cases hargs : PassArgs A buffer (clip hb size) hmac (clip hb hmacSize)
        · obtain ⟨q1, q2, q3, q4, q5⟩ := id hargs
          obtain ⟨i, rfl⟩ := Option.ne_none_iff_exists'.mp q1
          obtain ⟨o, rfl⟩ := Option.ne_none_iff_exists'.mp q3
          have hol : o + clip hb hmacSize ≤ caller.length := hh o rfl q5
          have hdl := digestLen L (K.map (· ^^^ 0x36#8) ++ slice caller i (clip hb size))
          have hol2 : o + clip hb hmacSize ≤ (overwrite caller o (H.digest (K.map (· ^^^ 0x36#8) ++ slice caller i (clip hb size)))).length := by
            rw [overwrite_length (by omega)]; exact hol
          rw [hmacPass_ok L u env hscr count (K.map (· ^^^ 0x36#8)) i (clip hb size) o (clip hb hmacSize) _ _ g3 rfl (by simp only; omega) (by simp [getKey]) (hKx _) (hbuf i rfl q2) q2 hol q4 q5]
          simp only [Res.ok_bind, Bool.not_true, Bool.false_eq_true, if_false]
          rw [hostHmacPass_eq h1 h2 L u env hscr (count + 1) (K.map (· ^^^ 0x5c#8)) (some o) A.hashSize (some o) hmacSize _ _ rfl (by simp only; omega) (by simp [getKey]) (hKx _) (by
            rw [clip_le (show A.hashSize ≤ hostMax hb by omega)]
            rintro _ ⟨⟩ -
            exact le_trans (by omega) hol2), clip_le (show A.hashSize ≤ hostMax hb by omega)]
        · obtain ⟨c, x, hrep, e⟩ := hmacPass_args L u env hscr count (K.map (· ^^^ 0x36#8)) buffer (clip hb size) hmac (clip hb hmacSize) ⟨none, some a, some count, some (count + 1), kh⟩
            ⟨caller, count + 2, (count + 1, .bytes (K.map (· ^^^ 0x5c#8))) :: (count, .bytes (K.map (· ^^^ 0x36#8))) :: (a, .bytes K) :: live0, freed⟩
            g3 rfl (by simp only; omega) (by simp [getKey]) (hKx _) hbuf hargs
          rw [e]
          rfl

theorem hostCalculateHmac_eq (h1 : 16 ≤ hb) (h2 : hb ≤ 64) (L : Lawful A H enc) (u : Bool) (env : Env w) (hscr : ScrOk A env.scr) (keyHash : List Byte) (hkh : keyHash.length = A.hashSize)
    (key : Option Nat) (keySize : Nat) (buffer : Option Nat) (size : Nat) (hmac : Option Nat) (hmacSize : Nat) (s : St w)
    (hk : AreaOk s.caller key (clip hb keySize)) (hbuf : AreaOk s.caller buffer (clip hb size)) (hh : AreaOk s.caller hmac (clip hb hmacSize)) :
    hostCalculateHmac hb A u env keyHash key keySize buffer size hmac hmacSize s =
      calculateHmac A u env keyHash key (clip hb keySize) buffer (clip hb size) hmac (clip hb hmacSize) s := by
  obtain ⟨p1, p2, p3⟩ := hostPow h1 h2
  have hsm : hostMax hb ≤ ssizeMax := by unfold ssizeMax; omega
  have hhs := L.hashLe
  have hBs : A.blockSize ≤ 128 := by rcases L.size with h | h <;> omega
  unfold hostCalculateHmac calculateHmac
  cases key with
  | none => rfl
  | some k =>
    dsimp only
    by_cases hn : keySize ≤ hostMax hb
    · rw [clip_le hn] at hk ⊢
      rw [if_neg (show ¬ hostMax hb < keySize by omega), if_neg (show ¬ ssizeMax < keySize by omega)]
      have hlt : hmacSize < A.hashSize ↔ clip hb hmacSize < A.hashSize := by unfold clip; split <;> omega
      by_cases hq : hmacSize < A.hashSize
      · rw [if_pos hq, if_pos (hlt.mp hq)]
      · rw [if_neg hq, if_neg (fun h => hq (hlt.mpr h))]
        have hkl : k + keySize ≤ s.caller.length := hk k rfl (by unfold ssizeMax at hsm; omega)
        rw [hostHmacKey_eq h1 h2 L u env hscr k keySize _ s rfl hn hkl]
        cases h0 : env.allocOk s.count with
        | false => rw [hmacKey_fail A u env _ _ _ _ h0]; rfl
        | true =>
          by_cases hkb : keySize ≤ A.hmacBlockSize
          · rw [hmacKey_short L u env k keySize _ s h0 hkb hkl]
            simp only [Res.ok_bind, Bool.not_true, Bool.false_eq_true, if_false]
            exact hostHmacRest_eq h1 h2 L u env hscr buffer size hmac hmacSize _ keyHash s.count _ s.live (paddedKey_length L _) (by simp) rfl hbuf hh
          · cases h0' : env.allocOk (s.count + 1) with
            | false =>
              obtain ⟨d, hd, e⟩ := hmacKey_long_fail (A := A) u env k keySize ⟨none, none, none, none, keyHash⟩ s h0 h0' rfl (by omega)
              rw [e]
              rfl
            | true =>
              rw [hmacKey_long L u env hscr k keySize ⟨none, none, none, none, keyHash⟩ s h0 h0' rfl hkh (by omega) (by omega) hkl]
              simp only [Res.ok_bind, Bool.not_true, Bool.false_eq_true, if_false]
              exact hostHmacRest_eq h1 h2 L u env hscr buffer size hmac hmacSize _ _ s.count _ s.live (paddedKey_length L _) (by simp) rfl hbuf hh
    · rw [clip_gt hn, if_pos (show hostMax hb < keySize by omega), if_pos (show ssizeMax < 2 ^ 63 by unfold ssizeMax; omega)]

end Model

import Verif.Model.HostBackend
import Verif.Proofs.BuildsHost
import Verif.Proofs.BackendOneShot
/-! The builds with a crypto library on hosts of other widths: their calls are calls on a 64-bit host, with sizes above the limit replaced. -/

namespace Model

open Spec (Kind ApiCall Reply)

variable {hb : Nat}

/-- A size as the 64-bit model sees it: 2^63 if above the limit. -/
def clipTo (limit n : Nat) : Nat := if n ≤ limit then n else 2 ^ 63

theorem clipTo_le {limit n : Nat} (h : n ≤ limit) : clipTo limit n = n := if_pos h

theorem clipTo_gt {limit n : Nat} (h : limit < n) : clipTo limit n = 2 ^ 63 := if_neg (by omega)

/-- A call as the 64-bit model sees it. -/
def bClipCall (hb : Nat) (B : Backend) : ApiCall → ApiCall
  | .update b n => .update b (clipTo (hostMaxUpdate hb B) n)
  | .finalize o n => .finalize o (clipTo (hostMaxOutput hb B) n)
  | c => c

theorem hostMaxUpdate_le (h1 : 16 ≤ hb) (h2 : hb ≤ 64) (B : Backend) : 2 ^ 15 - 1 ≤ hostMaxUpdate hb B ∧ hostMaxUpdate hb B ≤ B.maxUpdate := by
  obtain ⟨p1, p2, p3⟩ := hostPow h1 h2
  rcases B with (_ | _) | _ | _ <;> simp only [hostMaxUpdate, Backend.maxUpdate, ssizeMax] <;> omega

theorem hostMaxOutput_le (h1 : 16 ≤ hb) (h2 : hb ≤ 64) (B : Backend) : 2 ^ 15 - 1 ≤ hostMaxOutput hb B ∧ hostMaxOutput hb B ≤ B.maxOutput := by
  obtain ⟨p1, p2, p3⟩ := hostPow h1 h2
  have he : 2 ^ 15 - 1 ≤ (2 ^ 32 - 1) % 2 ^ hb ∧ (2 ^ 32 - 1) % 2 ^ hb ≤ 2 ^ 32 - 1 := by
    refine ⟨?_, Nat.mod_le _ _⟩
    by_cases h : hb ≤ 32
    · have hd : 2 ^ 32 = 2 ^ hb * 2 ^ (32 - hb) := by rw [← Nat.pow_add]; congr 1; omega
      have hp : 0 < 2 ^ (32 - hb) := Nat.pow_pos (by omega)
      have : (2 ^ 32 - 1) % 2 ^ hb = 2 ^ hb - 1 := by
        obtain ⟨q, hq⟩ : ∃ q, 2 ^ (32 - hb) = q + 1 := ⟨2 ^ (32 - hb) - 1, by omega⟩
        rw [hd, hq, Nat.mul_succ, Nat.add_sub_assoc (by omega), Nat.mul_add_mod, Nat.mod_eq_of_lt (by omega)]
      omega
    · have : 2 ^ 32 ≤ 2 ^ hb := Nat.pow_le_pow_right (by omega) (by omega)
      rw [Nat.mod_eq_of_lt (by omega)]
      omega
  rcases B with (_ | _) | _ | _ <;> simp only [hostMaxOutput, Backend.maxOutput, ssizeMax] <;> omega

theorem maxUpdate_lt (B : Backend) : B.maxUpdate < 2 ^ 63 := by rcases B with (_ | _) | _ | _ <;> decide

theorem maxOutput_lt (B : Backend) : B.maxOutput < 2 ^ 63 := by rcases B with (_ | _) | _ | _ <;> decide

variable {L : Library}

/-- The areas may differ where the size is refused. -/
theorem hostBUpdate_eq (h1 : 16 ≤ hb) (h2 : hb ≤ 64) (B : Backend) (slot : Option Nat) (buf buf' : Option (List Byte)) (size : Nat) (s : BSt L.State) (hnone : buf = none ↔ buf' = none)
    (hsame : size ≤ hostMaxUpdate hb B → buf = buf') : hostBUpdate hb B L slot buf size s = bUpdate B L slot buf' (clipTo (hostMaxUpdate hb B) size) s := by
  have hm := (hostMaxUpdate_le h1 h2 B).2
  have hlt := maxUpdate_lt B
  cases slot with
  | none => rfl
  | some p =>
    by_cases hs : size ≤ hostMaxUpdate hb B
    · rw [← hsame hs, clipTo_le hs]
      cases buf with
      | none => rfl
      | some b => simp only [hostBUpdate, bUpdate, if_neg (Nat.not_lt.mpr hs), if_neg (Nat.not_lt.mpr (Nat.le_trans hs hm))]
    · rw [clipTo_gt (by omega)]
      cases buf with
      | none => rw [hnone.mp rfl]; rfl
      | some b =>
        obtain ⟨b', rfl⟩ := Option.ne_none_iff_exists'.mp fun h => by simpa using hnone.mpr h
        simp only [hostBUpdate, bUpdate, if_pos (Nat.lt_of_not_le hs), if_pos hlt]

/-- Where the size is refused, the area stays as it is. -/
theorem hostBFinalize_eq (h1 : 16 ≤ hb) (h2 : hb ≤ 64) (B : Backend) (n : Nat) (slot : Option Nat) (out : Option (List Byte)) (size : Nat) (s : BSt L.State) :
    hostBFinalize hb B L n slot out size s = bFinalize B L n slot out (clipTo (hostMaxOutput hb B) size) s := by
  have hm := (hostMaxOutput_le h1 h2 B).2
  have hlt := maxOutput_lt B
  cases slot with
  | none => rfl
  | some p =>
    cases out with
    | none => rfl
    | some o =>
      by_cases hs : size ≤ hostMaxOutput hb B
      · rw [clipTo_le hs]
        simp only [hostBFinalize, bFinalize, if_neg (Nat.not_lt.mpr hs), if_neg (Nat.not_lt.mpr (Nat.le_trans hs hm))]
      · rw [clipTo_gt (by omega)]
        simp only [hostBFinalize, bFinalize, if_pos (Nat.lt_of_not_le hs), if_pos hlt]

theorem hostBStep_eq (h1 : 16 ≤ hb) (h2 : hb ≤ 64) (B : Backend) (n : Nat) (allocOk : Nat → Bool) (c : ApiCall) (slot : Option Nat) (s : BSt L.State) :
    hostBStep hb B L n allocOk c slot s = bStep B L n allocOk (bClipCall hb B c) slot s := by
  cases c with
  | update b size => simp only [hostBStep, bClipCall, bStep, hostBUpdate_eq h1 h2 B slot b b size s Iff.rfl (fun _ => rfl)]
  | finalize o size => simp only [hostBStep, bClipCall, bStep, hostBFinalize_eq h1 h2]
  | _ => rfl

theorem hostBRun_eq (h1 : 16 ≤ hb) (h2 : hb ≤ 64) (B : Backend) (n : Nat) (allocOk : Nat → Bool) : ∀ (calls : List ApiCall) (slot : Option Nat) (s : BSt L.State),
    hostBRun hb B L n allocOk calls slot s = bRun B L n allocOk (calls.map (bClipCall hb B)) slot s
  | [], _, _ => rfl
  | c :: cs, slot, s => by simp only [hostBRun, List.map_cons, bRun, hostBStep_eq h1 h2, hostBRun_eq h1 h2 B n allocOk cs]

/-! ### One-shot functions -/

theorem oRegion_none (s : OSt L.State) (p : Option Nat) (a b : Nat) : oRegion s p a = none ↔ oRegion s p b = none := by
  cases p <;> simp [oRegion]

theorem hostOUpdate_eq (h1 : 16 ≤ hb) (h2 : hb ≤ 64) (B : Backend) (slot : Option Nat) (buffer : Option Nat) (size : Nat) (s : OSt L.State) :
    hostOUpdate hb B L slot (oRegion s buffer size) size s = oUpdate B L slot (oRegion s buffer (clipTo (hostMaxUpdate hb B) size)) (clipTo (hostMaxUpdate hb B) size) s := by
  simp only [hostOUpdate, oUpdate]
  rw [hostBUpdate_eq h1 h2 B slot _ (oRegion s buffer (clipTo (hostMaxUpdate hb B) size)) size s.ctxs (oRegion_none _ _ _ _) (fun h => by rw [clipTo_le h])]

theorem hostOUpdate_small (h1 : 16 ≤ hb) (h2 : hb ≤ 64) (B : Backend) (slot : Option Nat) (buf : Option (List Byte)) (size : Nat) (s : OSt L.State) (h : size ≤ hostMaxUpdate hb B) :
    hostOUpdate hb B L slot buf size s = oUpdate B L slot buf size s := by
  simp only [hostOUpdate, oUpdate]
  rw [hostBUpdate_eq h1 h2 B slot _ buf size s.ctxs Iff.rfl (fun _ => rfl), clipTo_le h]

theorem hostOFinalize_small (h1 : 16 ≤ hb) (h2 : hb ≤ 64) (B : Backend) (n : Nat) (slot : Option Nat) (out : Option (List Byte)) (size : Nat) (s : OSt L.State) (h : size ≤ hostMaxOutput hb B) :
    hostOFinalize hb B L n slot out size s = oFinalize B L n slot out size s := by
  simp only [hostOFinalize, oFinalize]
  rw [hostBFinalize_eq h1 h2, clipTo_le h]

theorem oSetRegion_self (s : OSt L.State) (p : Option Nat) (n : Nat) : oSetRegion s p (oRegion s p n) = s := by
  cases p with
  | none => rfl
  | some o =>
    obtain ⟨c, x, b, f⟩ := s
    simp only [oSetRegion, oRegion, Option.map_some, OSt.mk.injEq, and_true]
    have : (c.drop o).take n ++ c.drop (o + ((c.drop o).take n).length) = c.drop o := by
      rw [← List.drop_drop]
      conv_rhs => rw [← List.take_append_drop n (c.drop o)]
      congr 1
      rw [List.length_take]
      by_cases hn : n ≤ (c.drop o).length
      · rw [Nat.min_eq_left hn]
      · rw [Nat.min_eq_right (by omega), List.drop_eq_nil_of_le (Nat.le_refl _), List.drop_eq_nil_of_le (by omega)]
    rw [this, List.take_append_drop]

theorem res_then {α β γ : Type} (x : Res α) (g : α → β) (f : β → Res γ) : ((x >>= fun a => pure (g a)) >>= f) = x >>= fun a => f (g a) := by
  cases x <;> rfl

/-- `finalize` and the output area. -/
def oFinalizeTo (B : Backend) (L : Library) (n : Nat) (slot : Option Nat) (p : Option Nat) (size : Nat) (s : OSt L.State) : Res (Int × OSt L.State) := do
  let (r, h, s) ← oFinalize B L n slot (oRegion s p size) size s
  pure (r, oSetRegion s p h)

def hostOFinalizeTo (hb : Nat) (B : Backend) (L : Library) (n : Nat) (slot : Option Nat) (p : Option Nat) (size : Nat) (s : OSt L.State) : Res (Int × OSt L.State) := do
  let (r, h, s) ← hostOFinalize hb B L n slot (oRegion s p size) size s
  pure (r, oSetRegion s p h)

theorem hostOFinalizeTo_eq (h1 : 16 ≤ hb) (h2 : hb ≤ 64) (B : Backend) (n : Nat) (slot : Option Nat) (p : Option Nat) (size : Nat) (s : OSt L.State) :
    hostOFinalizeTo hb B L n slot p size s = oFinalizeTo B L n slot p (clipTo (hostMaxOutput hb B) size) s := by
  have hm := (hostMaxOutput_le h1 h2 B).2
  have hlt := maxOutput_lt B
  by_cases hs : size ≤ hostMaxOutput hb B
  · simp only [hostOFinalizeTo, oFinalizeTo]
    rw [clipTo_le hs, hostOFinalize_small h1 h2 B n slot _ size s hs]
  · rw [clipTo_gt (by omega)]
    have a : hostBFinalize hb B L n slot (oRegion s p size) size s.ctxs = .ok (-1, oRegion s p size, s.ctxs) := by
      cases slot with
      | none => cases p <;> rfl
      | some q =>
        cases p with
        | none => rfl
        | some o => simp only [oRegion, Option.map_some, hostBFinalize, if_pos (Nat.lt_of_not_le hs)]
    have b : bFinalize B L n slot (oRegion s p (2 ^ 63)) (2 ^ 63) s.ctxs = .ok (-1, oRegion s p (2 ^ 63), s.ctxs) := by
      cases slot with
      | none => cases p <;> rfl
      | some q =>
        cases p with
        | none => rfl
        | some o => simp only [oRegion, Option.map_some, bFinalize, if_pos hlt]
    simp only [hostOFinalizeTo, oFinalizeTo, hostOFinalize, oFinalize, a, b, Res.ok_bind, Res.pure_eq]
    rw [oSetRegion_self, oSetRegion_self]

theorem hostOCalculate_eq (h1 : 16 ≤ hb) (h2 : hb ≤ 64) (B : Backend) (n : Nat) (env : OEnv) (buffer : Option Nat) (size : Nat) (hash : Option Nat) (hashSize : Nat) (s : OSt L.State) :
    hostOCalculate hb B L n env buffer size hash hashSize s = oCalculate B L n env buffer (clipTo (hostMaxUpdate hb B) size) hash (clipTo (hostMaxOutput hb B) hashSize) s := by
  have hf : ∀ (f : Int → OSt L.State → Res (Int × OSt L.State)) c t, (hostOFinalize hb B L n c (oRegion t hash hashSize) hashSize t >>= fun x => f x.1 (oSetRegion x.2.2 hash x.2.1)) =
      oFinalize B L n c (oRegion t hash (clipTo (hostMaxOutput hb B) hashSize)) (clipTo (hostMaxOutput hb B) hashSize) t >>= fun x => f x.1 (oSetRegion x.2.2 hash x.2.1) := by
    intro f c t
    have := congrArg (fun y => y >>= fun x : Int × OSt L.State => f x.1 x.2) (hostOFinalizeTo_eq h1 h2 B n c hash hashSize t)
    simpa only [hostOFinalizeTo, oFinalizeTo, res_then] using this
  unfold hostOCalculate oCalculate
  congr 1
  funext ⟨r, context, s⟩
  simp only [hostOUpdate_eq h1 h2]
  split
  · rfl
  · congr 1
    funext ⟨r, s⟩
    split
    · rfl
    · exact hf (fun r s => if r ≠ 1 then oCalculateError B L context s else do
        let (r, context, s) ← oFree B L context s
        if r ≠ 1 then oCalculateError B L context s else pure (1, s)) context s

theorem hostOPass_eq (h1 : 16 ≤ hb) (h2 : hb ≤ 64) (B : Backend) (n blockSize : Nat) (hblk : blockSize ≤ 128) (env : OEnv) (padding : Option Nat) (buffer : Option Nat) (size : Nat) (hmac : Option Nat) (hmacSize : Nat) (l : Loc)
    (s : OSt L.State) : hostOPass hb B L n blockSize env padding buffer size hmac hmacSize l s =
      oPass B L n blockSize env padding buffer (clipTo (hostMaxUpdate hb B) size) hmac (clipTo (hostMaxOutput hb B) hmacSize) l s := by
  have hu := (hostMaxUpdate_le h1 h2 B).1
  have hf : ∀ (f : Int → OSt L.State → Res (Bool × Loc × OSt L.State)) c t, (hostOFinalize hb B L n c (oRegion t hmac hmacSize) hmacSize t >>= fun x => f x.1 (oSetRegion x.2.2 hmac x.2.1)) =
      oFinalize B L n c (oRegion t hmac (clipTo (hostMaxOutput hb B) hmacSize)) (clipTo (hostMaxOutput hb B) hmacSize) t >>= fun x => f x.1 (oSetRegion x.2.2 hmac x.2.1) := by
    intro f c t
    have := congrArg (fun y => y >>= fun x : Int × OSt L.State => f x.1 x.2) (hostOFinalizeTo_eq h1 h2 B n c hmac hmacSize t)
    simpa only [hostOFinalizeTo, oFinalizeTo, res_then] using this
  unfold hostOPass oPass
  congr 1
  funext ⟨r, context, s⟩
  simp only [hostOUpdate_eq h1 h2]
  split
  · rfl
  · congr 1
    funext d
    rw [hostOUpdate_small h1 h2 B _ _ _ _ (by omega)]
    congr 1
    funext ⟨r, s⟩
    split
    · rfl
    · congr 1
      funext ⟨r, s⟩
      split
      · rfl
      · exact hf (fun r s => if r ≠ 1 then pure (false, { l with context := context }, s) else do
          let (r, context, s) ← oFree B L context s
          if r ≠ 1 then pure (false, { l with context := context }, s) else pure (true, { l with context := context }, s)) context s

theorem hostOKey_eq (h1 : 16 ≤ hb) (h2 : hb ≤ 64) (B : Backend) (n blockSize : Nat) (hn : n ≤ 64) (hblk : blockSize ≤ 128) (env : OEnv) (key : Option Nat) (keySize : Nat) (hk : keySize ≤ hostMax hb) (l : Loc) (s : OSt L.State) :
    hostOKey hb B L n blockSize env key keySize l s = oKey B L n blockSize env key keySize l s := by
  obtain ⟨p1, p2, p3⟩ := hostPow h1 h2
  have ho := (hostMaxOutput_le h1 h2 B).1
  have hsub : ∀ a b : Nat, b ≤ a → a ≤ 128 → hostSub hb a b = szSub a b := fun a b hab ha => by
    rw [hostSub_eq hab (by omega), szSub_eq hab (by omega)]
  have hupd : ∀ slot (t : OSt L.State), hostOUpdate hb B L slot (oRegion t key keySize) keySize t = oUpdate B L slot (oRegion t key keySize) keySize t := by
    intro slot t
    by_cases hB : keySize ≤ hostMaxUpdate hb B
    · exact hostOUpdate_small h1 h2 B slot _ keySize t hB
    · have hB' : B = .direct true := by
        rcases B with (_ | _) | _ | _ <;> simp only [hostMaxUpdate] at hB <;> first | rfl | exact absurd hk hB
      subst hB'
      simp only [hostOUpdate, oUpdate]
      cases slot with
      | none => rfl
      | some q =>
        cases key with
        | none => rfl
        | some o =>
          simp only [oRegion, Option.map_some, hostBUpdate, bUpdate, hostMaxUpdate, Backend.maxUpdate]
          rfl
  unfold hostOKey oKey
  generalize oAlloc env blockSize s = q
  obtain ⟨p, s⟩ := q
  cases p with
  | none => rfl
  | some p =>
    simp only
    split
    · rename_i hle
      rw [hsub _ _ hle hblk]
      rfl
    · congr 1
      funext ⟨r, context, s⟩
      simp only [hupd]
      split
      · rfl
      · congr 1
        funext ⟨r, s⟩
        split
        · rfl
        · rw [hostOFinalize_small h1 h2 B _ _ _ _ _ (by omega)]
          congr 1
          funext ⟨r, h, s⟩
          cases h with
          | none => rfl
          | some h =>
            simp only
            split
            · rfl
            · congr 1
              funext ⟨r, context, s⟩
              simp only
              split
              · rfl
              · congr 1
                funext d
                split
                · rename_i hlt
                  rw [hsub _ _ (Nat.le_of_lt hlt) hblk]
                · rfl

theorem hostOCalculateHmac_eq (h1 : 16 ≤ hb) (h2 : hb ≤ 64) (B : Backend) (n blockSize : Nat) (hn : n ≤ 64) (hblk : blockSize ≤ 128) (env : OEnv) (kh : List Byte) (key : Option Nat) (keySize : Nat) (buffer : Option Nat) (size : Nat)
    (hmac : Option Nat) (hmacSize : Nat) (s : OSt L.State) : hostOCalculateHmac hb B L n blockSize env kh key keySize buffer size hmac hmacSize s =
      oCalculateHmac B L n blockSize env kh key (clipTo (hostMax hb) keySize) buffer (clipTo (hostMaxUpdate hb B) size) hmac (clipTo (hostMaxOutput hb B) hmacSize) s := by
  obtain ⟨p1, p2, p3⟩ := hostPow h1 h2
  have hu := (hostMaxUpdate_le h1 h2 B).1
  have ho := (hostMaxOutput_le h1 h2 B).1
  cases key with
  | none => rfl
  | some k =>
    by_cases hk : keySize ≤ hostMax hb
    · rw [clipTo_le hk]
      have hlt : (clipTo (hostMaxOutput hb B) hmacSize < n) ↔ hmacSize < n := by
        unfold clipTo
        split <;> omega
      simp only [hostOCalculateHmac, oCalculateHmac, if_neg (Nat.not_lt.mpr hk), hlt, hostOKey_eq h1 h2 B n blockSize hn hblk env (some k) keySize hk, hostOPass_eq h1 h2 B n blockSize hblk,
        clipTo_le (show n ≤ hostMaxUpdate hb B by omega), if_neg (show ¬ ssizeMax < keySize by unfold ssizeMax; omega)]
    · rw [clipTo_gt (by omega)]
      simp only [hostOCalculateHmac, oCalculateHmac, if_pos (Nat.lt_of_not_le hk), if_pos (show ssizeMax < 2 ^ 63 by decide)]

end Model

namespace Model.Builds

open Model
open Spec (Kind ApiCall Reply)

variable {hb : Nat} {ch : Kind → Choice} {L : Kind → Library}

/-- A call of a built-in context on a host of another width does the same, in any build. -/
theorem mixedHost_builtin (h1 : 16 ≤ hb) (h2 : hb ≤ 64) {T : Tool} (hT : T.Ok) {base : Nat → List Nat} {ctx : Kind → Option Nat} {mem : Mem} {a : Abs} (ha : CtxRel base (restrict ch ctx) ⟨mem, []⟩ a) (k : Kind)
    (hk : ch k = .builtin) (c : ApiCall) (n : Nat) (hu : ∀ buffer size, c = .update buffer size → size ≤ hostMax hb ∧ ∀ b, buffer = some b → size ≤ b.length) (hf : ∀ o size, c = .finalize o size → size ≤ hostMax hb) :
    (Contexts.host hb T).call k c n (ctx k) mem = (Contexts.builtin T).call k c n (ctx k) mem := by
  have hrel : BuiltinRel base (restrict ch ctx) mem (fun j => (a j).map fun x => if x.1 = j.len64.iv then some x.2 else none) := by
    refine ⟨⟨a, ?_, fun j _ => ?_⟩, (fun j B h => by cases h), fun _ _ => rfl⟩
    · rw [show restrict allBuiltin (restrict ch ctx) = restrict ch ctx from funext fun j => if_pos rfl]
      exact ha
    · cases a j with
      | none => trivial
      | some x =>
        obtain ⟨h0, msg⟩ := x
        intro y hy
        simp only at hy
        split at hy
        · rename_i h
          exact ⟨h, Option.some.inj hy⟩
        · cases hy
  have := host_call h1 h2 hT hrel k c n hu hf
  rwa [show restrict ch ctx k = ctx k from if_pos hk] at this

/-- The builds obey the law on every host. -/
theorem mixedHost_law {Rep : (k : Kind) → (L k).State → List Byte → Prop} {base : Nat → List Nat} {live0 : (k : Kind) → List (Nat × BObj (L k).State)} (h1 : 17 ≤ hb) (h2 : hb ≤ 64) {T : Tool} (hT : T.Ok)
    (hL : ∀ k, ch k ≠ .builtin → Contract (L k) k (Rep k)) (htame : ∀ k, ch k ≠ .builtin → Tame (L k) k.hashSize) (limit : Nat) (hlim : ∀ k B, ch k = .crypto B → limit ≤ B.maxUpdate) :
    Law (Contexts.mixedHost hb ch L T) T (∀ k, ch k ≠ .builtin → Reliable (L k)) limit (MixedRel ch L Rep base live0) := by
  obtain ⟨p1, p2, p3⟩ := hostPow (by omega : 16 ≤ hb) h2
  refine (mixed_law hT hL htame limit hlim).transport (C' := Contexts.mixedHost hb ch L T) (f := id) (g := id) ⟨h1, h2⟩ (by
      show hostMax hb ≤ hostMax 64
      unfold hostMax at *
      omega) (fun h => h) (fun _ => rfl) (fun {ctx m b} h k c n r slot m' hu hf e => ?_)
  rw [id] at e ⊢
  rw [← e]
  have hsz : k.hashSize ≤ 64 := by cases k <;> decide
  cases hk : ch k with
  | builtin =>
    obtain ⟨a, ha, -⟩ := h.builtin
    have : (Contexts.host hb T).call k c n (ctx k) m.mem = (Contexts.builtin T).call k c n (ctx k) m.mem := mixedHost_builtin (by omega) h2 hT ha k hk c n hu fun o size hc => by
      rw [hf o size hc]
      omega
    simp only [Contexts.mixedHost, Contexts.mixed, hk, this]
  | crypto B =>
    have hc : bStep B (L k) k.hashSize T.alloc (bClipCall hb B c) (ctx k) ⟨m.mem.count, m.calls, m.live k⟩ = bStep B (L k) k.hashSize T.alloc c (ctx k) ⟨m.mem.count, m.calls, m.live k⟩ := by
      cases c with
      | update buffer size =>
        have hs : size ≤ hostMax hb := (hu buffer size rfl).1
        by_cases hB : size ≤ hostMaxUpdate hb B
        · rw [bClipCall, clipTo_le hB]
        · have hB' : B = .direct true := by
            rcases B with (_ | _) | _ | _ <;> simp only [hostMaxUpdate] at hB <;> first | rfl | exact absurd hs hB
          subst hB'
          have hbig : 2 ^ 32 - 1 < size := by simpa [hostMaxUpdate] using hB
          rw [bClipCall, clipTo_gt (by simpa [hostMaxUpdate] using hbig)]
          simp only [bStep]
          cases ctx k with
          | none => rfl
          | some q =>
            cases buffer with
            | none => rfl
            | some o => simp only [bUpdate, Backend.maxUpdate, if_pos hbig, if_pos (show 2 ^ 32 - 1 < 2 ^ 63 by decide)]
      | finalize o size =>
        have := (hostMaxOutput_le (by omega) h2 B).1
        rw [bClipCall, clipTo_le (by rw [hf o size rfl]; omega)]
      | _ => rfl
    simp only [Contexts.mixedHost, Contexts.mixed, hk, hostBStep_eq (show 16 ≤ hb by omega) h2, hc]

end Model.Builds

import Verif.Proofs.HostBackend
import Verif.Props.Host
import Verif.Props.HostTool
import Verif.Props.EndToEnd
/-! C85: the builds with a crypto library on hosts whose `size_t` has another number of bits: the context functions, the one-shot functions and hmacsum. -/

namespace Props

open Model Spec Configure

variable {hb : Nat} {ch : Kind → Choice} {L : Kind → Library}

/-! ### The context functions -/

/-- C85. A program all of whose sizes are at most SSIZE_MAX of the host has the same results, the same outputs and the same memory as on a 64-bit host, with any library. -/
theorem C85_same_as_64 (h1 : 16 ≤ hb) (h2 : hb ≤ 64) (B : Backend) (L : Library) (hashSize : Nat) (allocOk : Nat → Bool) (calls : List ApiCall) (hw : ∀ c ∈ calls, WithinLimit hb c) (slot : Option Nat) (s : BSt L.State) :
    hostBRun hb B L hashSize allocOk calls slot s = bRun B L hashSize allocOk calls slot s := by
  obtain ⟨p1, p2, p3⟩ := hostPow h1 h2
  have hstep : ∀ c, WithinLimit hb c → ∀ slot (s : BSt L.State), hostBStep hb B L hashSize allocOk c slot s = bStep B L hashSize allocOk c slot s := by
    intro c hc slot s
    rw [hostBStep_eq h1 h2]
    cases c with
    | update b size =>
      have hc : size ≤ hostMax hb := hc
      by_cases hB : size ≤ hostMaxUpdate hb B
      · rw [bClipCall, clipTo_le hB]
      · have hB' : B = .direct true := by
          rcases B with (_ | _) | _ | _ <;> simp only [hostMaxUpdate] at hB <;> first | rfl | exact absurd hc hB
        subst hB'
        have hbig : (Backend.direct true).maxUpdate < size := Nat.lt_of_not_le hB
        rw [bClipCall, clipTo_gt (Nat.lt_of_not_le hB)]
        simp only [bStep]
        cases slot with
        | none => rfl
        | some q =>
          cases b with
          | none => rfl
          | some o => simp only [bUpdate, if_pos hbig, if_pos (maxUpdate_lt (.direct true))]
    | finalize o size =>
      have hc : size ≤ hostMax hb := hc
      by_cases hB : size ≤ hostMaxOutput hb B
      · rw [bClipCall, clipTo_le hB]
      · have hbig : B.maxOutput < size := by
          have key : ¬ size ≤ (2 ^ 32 - 1) % 2 ^ hb → 2 ^ 32 - 1 < size := by
            intro h
            by_cases h32 : 2 ^ 32 - 1 < 2 ^ hb
            · rw [Nat.mod_eq_of_lt h32] at h
              omega
            · have : hb ≤ 32 := by
                by_contra hn
                have : 2 ^ 32 ≤ 2 ^ hb := Nat.pow_le_pow_right (by omega) (by omega)
                omega
              have hd : 2 ^ 32 = 2 ^ hb * 2 ^ (32 - hb) := by rw [← Nat.pow_add]; congr 1; omega
              obtain ⟨q, hq⟩ : ∃ q, 2 ^ (32 - hb) = q + 1 := ⟨2 ^ (32 - hb) - 1, by have : 0 < 2 ^ (32 - hb) := Nat.pow_pos (by omega); omega⟩
              rw [hd, hq, Nat.mul_succ, Nat.add_sub_assoc (by omega), Nat.mul_add_mod, Nat.mod_eq_of_lt (by omega)] at h
              omega
          rcases B with (_ | _) | _ | _ <;> simp only [hostMaxOutput] at hB <;> first | exact absurd hc hB | exact key hB
        rw [bClipCall, clipTo_gt (Nat.lt_of_not_le hB)]
        simp only [bStep]
        cases slot with
        | none => rfl
        | some q =>
          cases o with
          | none => rfl
          | some o => simp only [bFinalize, if_pos hbig, if_pos (maxOutput_lt B)]
    | _ => rfl
  induction calls generalizing slot s with
  | nil => rfl
  | cons c cs ih =>
    simp only [hostBRun, bRun, hstep c (hw c (List.mem_cons_self ..)), fun r s => ih (fun d hd => hw d (List.mem_cons_of_mem _ hd)) r s]

/-- The largest update and the largest output area of a build on a host whose `size_t` has `hb` bits. -/
def updateLimit (hb : Nat) : Backend → Nat
  | .direct true => 2 ^ 32 - 1
  | _ => sizeLimit hb

def outputLimit (hb : Nat) : Backend → Nat
  | .direct _ => sizeLimit hb
  | _ => min (2 ^ 32 - 1) (2 ^ hb - 1)

theorem updateLimit_eq (B : Backend) : hostMaxUpdate hb B = updateLimit hb B := by
  rcases B with (_ | _) | _ | _ <;> rfl

theorem outputLimit_eq (B : Backend) : hostMaxOutput hb B = outputLimit hb B := by
  have key : (2 ^ 32 - 1) % 2 ^ hb = min (2 ^ 32 - 1) (2 ^ hb - 1) := by
    by_cases h32 : 2 ^ 32 - 1 < 2 ^ hb
    · rw [Nat.mod_eq_of_lt h32]
      omega
    · have : hb ≤ 32 := by
        by_contra hn
        have : 2 ^ 32 ≤ 2 ^ hb := Nat.pow_le_pow_right (by omega) (by omega)
        omega
      have hp : 0 < 2 ^ hb := Nat.pow_pos (by omega)
      have hd : 2 ^ 32 = 2 ^ hb * 2 ^ (32 - hb) := by rw [← Nat.pow_add]; congr 1; omega
      obtain ⟨q, hq⟩ : ∃ q, 2 ^ (32 - hb) = q + 1 := ⟨2 ^ (32 - hb) - 1, by have : 0 < 2 ^ (32 - hb) := Nat.pow_pos (by omega); omega⟩
      have : (2 ^ 32 - 1) % 2 ^ hb = 2 ^ hb - 1 := by
        rw [hd, hq, Nat.mul_succ, Nat.add_sub_assoc (by omega), Nat.mul_add_mod, Nat.mod_eq_of_lt (by omega)]
      omega
  rcases B with (_ | _) | _ | _ <;> first | rfl | exact key

/-- The areas of a call are as long as the sizes say, where the build looks at them. -/
def BuildValid (hb : Nat) (B : Backend) : ApiCall → Prop
  | .update (some b) size => size ≤ updateLimit hb B → size ≤ b.length
  | .finalize (some o) size => size ≤ outputLimit hb B → size ≤ o.length
  | _ => True

theorem bClip_valid {B : Backend} {c : ApiCall} (h : BuildValid hb B c) : (bClipCall hb B c).Valid := by
  match c, h with
  | .init, _ => trivial
  | .initNull, _ => trivial
  | .free, _ => trivial
  | .freeNull, _ => trivial
  | .update none _, _ => trivial
  | .finalize none _, _ => trivial
  | .update (some b) n, h =>
    intro hn
    unfold clipTo at hn ⊢
    rw [updateLimit_eq] at hn ⊢
    split
    · exact h (by assumption)
    · rename_i hle
      rw [if_neg hle] at hn
      exact absurd hn (by decide)
  | .finalize (some b) n, h =>
    intro hn
    unfold clipTo at hn ⊢
    rw [outputLimit_eq] at hn ⊢
    split
    · exact h (by assumption)
    · rename_i hle
      rw [if_neg hle] at hn
      exact absurd hn (by decide)

/-- What the context was given does not depend on how refused calls are written. -/
theorem accepted_clip (B : Backend) : ∀ (h : List (ApiCall × Reply)) (a : Option (List Byte)), (∀ c ∈ h, ∀ b n, c.1 = .update b n → hostMaxUpdate hb B < n → c.2.code ≠ 1) →
    accepted (h.map fun c => (bClipCall hb B c.1, c.2)) a = accepted h a
  | [], _, _ => rfl
  | (c, r) :: h, a, hc => by
    have ih := fun a => accepted_clip B h a fun d hd => hc d (List.mem_cons_of_mem _ hd)
    match c with
    | .init => exact ih _
    | .initNull => exact ih _
    | .free => exact ih _
    | .freeNull => exact ih _
    | .finalize o n => cases o <;> exact ih _
    | .update b n =>
      by_cases hn : n ≤ hostMaxUpdate hb B
      · have e : bClipCall hb B (.update b n) = .update b n := by rw [bClipCall, clipTo_le hn]
        simp only [List.map_cons, e]
        cases b <;> exact ih _
      · have e : bClipCall hb B (.update b n) = .update b (2 ^ 63) := by rw [bClipCall, clipTo_gt (Nat.lt_of_not_le hn)]
        have hr : r.code ≠ 1 := hc _ (List.mem_cons_self ..) b n rfl (Nat.lt_of_not_le hn)
        simp only [List.map_cons, e]
        cases b
        · exact ih _
        · simp only [accepted, if_neg hr]
          exact ih _

/-- A call of a client whose size is above the limit of an update does not succeed. -/
theorem hostBRun_refused (B : Backend) (L : Library) (n : Nat) (allocOk : Nat → Bool) : ∀ (calls : List ApiCall) (slot : Option Nat) (s : BSt L.State) (rs : List Reply) (q : Option Nat) (t : BSt L.State),
    hostBRun hb B L n allocOk calls slot s = .ok (rs, q, t) → ∀ c ∈ calls.zip rs, ∀ b size, c.1 = .update b size → hostMaxUpdate hb B < size → c.2.code ≠ 1
  | [], _, _, _, _, _, _, c, hc, _, _, _, _ => by simp at hc
  | c :: cs, slot, s, rs, q, t, e, d, hd, b, size, hu, hlt => by
    simp only [hostBRun] at e
    cases e1 : hostBStep hb B L n allocOk c slot s with
    | ok x =>
      obtain ⟨r1, slot1, s1⟩ := x
      rw [e1] at e
      simp only [Res.ok_bind] at e
      cases e2 : hostBRun hb B L n allocOk cs slot1 s1 with
      | ok y =>
        obtain ⟨rs2, slot2, s2⟩ := y
        rw [e2] at e
        cases e
        rw [List.zip_cons_cons, List.mem_cons] at hd
        rcases hd with rfl | hd
        · simp only at hu ⊢
          subst hu
          rcases slot with _ | p <;> rcases b with _ | b <;> simp [hostBStep, hostBUpdate, hlt] at e1 <;> rw [← e1.1] <;> decide
        · exact hostBRun_refused B L n allocOk cs slot1 s1 rs2 slot2 s2 e2 d hd b size hu hlt
      | ub => rw [e2] at e; cases e
      | diverge => rw [e2] at e; cases e
    | ub => rw [e1] at e; cases e
    | diverge => rw [e1] at e; cases e

/-- C85. Whatever calls of the library fail: a digest that finalize returns with success is the digest of the message, if every update of the context succeeded; on a host with any `size_t` of 16 to 64 bits, for programs with any
sizes. -/
theorem C85_api_no_wrong_digest (h1 : 16 ≤ hb) (h2 : hb ≤ 64) (B : Backend) (k : Kind) (L : Library) (Rep : L.State → List Byte → Prop) (hL : Contract L k Rep) (allocOk : Nat → Bool) (calls : List ApiCall)
    (hv : ∀ c ∈ calls, BuildValid hb B c) (t : BSt L.State) :
    ∃ rs q t', hostBRun hb B L k.hashSize allocOk calls none t = .ok (rs, q, t') ∧ rs.length = calls.length ∧
      ∀ (i : Nat) o size r m, calls[i]? = some (.finalize (some o) size) → rs[i]? = some r → r.code = 1 → accepted ((calls.zip rs).take i) none = some m → m.length < 2 ^ 61 →
        r.out = some (k.std.digest m ++ o.drop k.hashSize) := by
  obtain ⟨rs, q, t', e, hl, h⟩ := C48_no_wrong_digest B k L Rep hL allocOk (calls.map (bClipCall hb B)) (fun c hc => by
    obtain ⟨d, hd, rfl⟩ := List.mem_map.mp hc
    exact bClip_valid (hv d hd)) t
  rw [← hostBRun_eq h1 h2] at e
  rw [List.length_map] at hl
  refine ⟨rs, q, t', e, hl, fun i o size r m hc hr hcode hm hlt => h i o _ r m (by rw [List.getElem?_map, hc]; rfl) hr hcode ?_ hlt⟩
  rw [List.zip_map_left, ← List.map_take]
  rw [← hm]
  exact accepted_clip B _ _ fun c hc b n => hostBRun_refused B L k.hashSize allocOk calls none t rs q t' e c (List.mem_of_mem_take hc) b n

example (k : Kind) : ∃ rs q t', hostBRun 32 .evpAllocated (failingLibrary k) k.hashSize (fun _ => true) (failCalls ++ [.update (some [1]) (2 ^ 31)]) none ⟨0, 0, []⟩ = .ok (rs, q, t') ∧ rs.length = 9 := by
  obtain ⟨rs, q, t', e, hl, -⟩ := C85_api_no_wrong_digest (hb := 32) (by decide) (by decide) .evpAllocated k (failingLibrary k) _ (failing_contract k) (fun _ => true) (failCalls ++ [.update (some [1]) (2 ^ 31)]) (by
    intro c hc
    simp only [failCalls, List.mem_cons, List.cons_append, List.nil_append, List.not_mem_nil, or_false] at hc
    rcases hc with rfl | rfl | rfl | rfl | rfl | rfl | rfl | rfl | rfl <;> simp [BuildValid, updateLimit, sizeLimit]) ⟨0, 0, []⟩
  exact ⟨rs, q, t', e, hl⟩

/-- C85. On such hosts too every history is free of undefined behaviour, with a library of which nothing is assumed, and afterwards the objects are those from before, and those of a context that the variable still holds. -/
theorem C85_released (h1 : 16 ≤ hb) (h2 : hb ≤ 64) (B : Backend) (L : Library) (hashSize : Nat) (allocOk : Nat → Bool) (calls : List ApiCall) (hv : ∀ c ∈ calls, BuildValid hb B c) (t : BSt L.State) :
    ∃ rs q t', hostBRun hb B L hashSize allocOk calls none t = .ok (rs, q, t') ∧ rs.length = calls.length ∧ (q = none → t'.live = t.live) ∧ ∃ t'', bFree B L q t' = .ok (1, none, t'') ∧ t''.live = t.live := by
  obtain ⟨rs, q, t', e, hl, h⟩ := C48_released B L hashSize allocOk (calls.map (bClipCall hb B)) (fun c hc => by
    obtain ⟨d, hd, rfl⟩ := List.mem_map.mp hc
    exact bClip_valid (hv d hd)) t
  rw [← hostBRun_eq h1 h2] at e
  rw [List.length_map] at hl
  exact ⟨rs, q, t', e, hl, h⟩

/-- C85. Which sizes are refused without any effect: those of an update above its limit, and those of an output area above its limit or below the digest; with any library. -/
theorem C85_refused (B : Backend) (L : Library) (hashSize : Nat) (allocOk : Nat → Bool) (p : Nat) (b : List Byte) (size : Nat) (s : BSt L.State) :
    (updateLimit hb B < size → hostBStep hb B L hashSize allocOk (.update (some b) size) (some p) s = .ok (⟨-1, none⟩, some p, s)) ∧
    (outputLimit hb B < size ∨ size < hashSize → hostBStep hb B L hashSize allocOk (.finalize (some b) size) (some p) s = .ok (⟨-1, some b⟩, some p, s)) := by
  rw [← updateLimit_eq, ← outputLimit_eq]
  constructor
  · intro h
    simp [hostBStep, hostBUpdate, h]
  · rintro (h | h)
    · simp [hostBStep, hostBFinalize, h]
    · by_cases h' : hostMaxOutput hb B < size <;> simp [hostBStep, hostBFinalize, h, h']

/-- The sizes of a program are at most the limits of the build. -/
def WithinBuild (hb : Nat) (B : Backend) : ApiCall → Prop
  | .update _ size => size ≤ updateLimit hb B
  | .finalize _ size => size ≤ outputLimit hb B
  | _ => True

/-- C85. No other sizes are refused: a program whose sizes are at most these limits has the results, the outputs and the memory that it has on a 64-bit host. -/
theorem C85_accepted (h1 : 16 ≤ hb) (h2 : hb ≤ 64) (B : Backend) (L : Library) (hashSize : Nat) (allocOk : Nat → Bool) (calls : List ApiCall) (hw : ∀ c ∈ calls, WithinBuild hb B c) (slot : Option Nat) (s : BSt L.State) :
    hostBRun hb B L hashSize allocOk calls slot s = bRun B L hashSize allocOk calls slot s := by
  rw [hostBRun_eq h1 h2]
  congr 1
  refine (List.map_congr_left fun c hc => ?_).trans (List.map_id _)
  have := hw c hc
  match c, this with
  | .init, _ => rfl
  | .initNull, _ => rfl
  | .free, _ => rfl
  | .freeNull, _ => rfl
  | .update b n, h => rw [bClipCall, clipTo_le (by rw [updateLimit_eq]; exact h), id]
  | .finalize b n, h => rw [bClipCall, clipTo_le (by rw [outputLimit_eq]; exact h), id]

/-- C85. The same replies as the built-in implementation on a 64-bit host, with a library whose calls succeed, for programs that use a context for one digest, with sizes that both accept or both refuse. -/
theorem C85_refines (h1 : 16 ≤ hb) (h2 : hb ≤ 64) (B : Backend) (k : Kind) (L : Library) (Rep : L.State → List Byte → Prop) (hL : Contract L k Rep) (hr : Reliable L)
    (u : Bool) (env : Env k.width) (calls : List (ApiCall × Scr k.width)) (hv : ValidCalls k calls) (hlen : (calls.map fun c => c.1.bytes).sum < 2 ^ 61)
    (hsize : ∀ c ∈ calls, B.SameSize c.1) (hw : ∀ c ∈ calls, WithinLimit hb c.1) (s : St k.width) (t : BSt L.State) (hcount : t.count = s.count)
    (hone : ∀ rs p s', run (algOf k) u env calls none s = .ok (rs, p, s') → UsedOnce false ((calls.map (·.1)).zip rs)) :
    ∃ rs p s' q t', run (algOf k) u env calls none s = .ok (rs, p, s') ∧ hostBRun hb B L k.hashSize env.allocOk (calls.map (·.1)) none t = .ok (rs, q, t') := by
  rw [C85_same_as_64 h1 h2 B L k.hashSize env.allocOk (calls.map (·.1)) (fun c hc => by
    obtain ⟨d, hd, rfl⟩ := List.mem_map.mp hc
    exact hw d hd)]
  exact C48_refines_partial B k L Rep hL hr u env calls hv hlen hsize s t hcount hone

/-- C85. Between the hosts and builds the largest output area differs: with an EVP library on a 32-bit host an output area of 2 GiB is accepted, where the built-in implementation refuses it. -/
theorem C85_output_limit (k : Kind) (B : Backend) (hB : ∀ b, B ≠ .direct b) : outputLimit 32 B = 2 ^ 32 - 1 ∧ sizeLimit 32 = 2 ^ 31 - 1 ∧
    ∀ (L : Library) (p : Nat) (o : List Byte) (s : BSt L.State), hostBFinalize 32 B L k.hashSize (some p) (some o) (2 ^ 31) s = bFinalize B L k.hashSize (some p) (some o) (2 ^ 31) s := by
  have e : outputLimit 32 B = 2 ^ 32 - 1 := by
    rcases B with b | _ | _
    · exact absurd rfl (hB b)
    · rfl
    · rfl
  refine ⟨e, rfl, fun L p o s => ?_⟩
  rw [hostBFinalize_eq (by decide) (by decide), clipTo_le (by rw [outputLimit_eq, e]; decide)]

/-! ### The one-shot functions -/

theorem areaOk_clip {mem : List Byte} {p : Option Nat} {n limit : Nat} (h : AreaOk mem p n) : AreaOk mem p (clipTo limit n) := by
  intro o ho hle
  unfold clipTo at hle ⊢
  split
  · rename_i hn
    rw [if_pos hn] at hle
    exact h o ho hle
  · rename_i hn
    rw [if_neg hn] at hle
    exact absurd hle (by decide)

/-- The arguments with which the build can compute a digest on a host. -/
def HostBDigestArgs (hb : Nat) (B : Backend) (k : Kind) (buffer : Option Nat) (size : Nat) (hash : Option Nat) (n : Nat) : Prop :=
  buffer ≠ none ∧ size ≤ updateLimit hb B ∧ hash ≠ none ∧ k.hashSize ≤ n ∧ n ≤ outputLimit hb B

/-- The arguments with which the build can compute an HMAC on a host. -/
def HostBHmacArgs (hb : Nat) (B : Backend) (k : Kind) (key : Option Nat) (keySize : Nat) (buffer : Option Nat) (size : Nat) (hmac : Option Nat) (n : Nat) : Prop :=
  key ≠ none ∧ keySize ≤ sizeLimit hb ∧ (k.blockSize < keySize → keySize ≤ updateLimit hb B) ∧ HostBDigestArgs hb B k buffer size hmac n

theorem hostBDigestArgs_iff (h1 : 16 ≤ hb) (h2 : hb ≤ 64) {B : Backend} {k : Kind} {buffer hash : Option Nat} {size n : Nat} :
    BDigestArgs B k buffer (clipTo (hostMaxUpdate hb B) size) hash (clipTo (hostMaxOutput hb B) n) ↔ HostBDigestArgs hb B k buffer size hash n := by
  have u := (hostMaxUpdate_le h1 h2 B).2
  have o := (hostMaxOutput_le h1 h2 B).2
  have u' := maxUpdate_lt B
  have o' := maxOutput_lt B
  unfold BDigestArgs HostBDigestArgs
  rw [← updateLimit_eq, ← outputLimit_eq]
  unfold clipTo
  split <;> split <;> constructor <;> rintro ⟨g1, g2, g3, g4, g5⟩ <;> refine ⟨g1, ?_, g3, ?_, ?_⟩ <;> omega

/-- C85. `calculate` on such hosts: it returns 1 exactly if the arguments are valid for the build and the host and nothing fails (with a library whose calls may fail: only if); no undefined behaviour, all contexts are released, at most
the digest area of the output is written, and nothing with -1 unless a call of the library failed. -/
theorem C85_calculate_result (h1 : 16 ≤ hb) (h2 : hb ≤ 64) (B : Backend) (k : Kind) (L : Library) (hT : Tame L k.hashSize) (env : OEnv) (buffer : Option Nat) (size : Nat) (hash : Option Nat) (n : Nat) (s : OSt L.State)
    (ha : AreaOk s.caller buffer size) (hh : AreaOk s.caller hash n) :
    ∃ r s', hostOCalculate hb B L k.hashSize env buffer size hash n s = .ok (r, s') ∧ (r = 1 ∨ r = -1) ∧ (r = 1 → HostBDigestArgs hb B k buffer size hash n ∧ env.allocOk s.ctxs.count = true) ∧
      (HostBDigestArgs hb B k buffer size hash n → env.allocOk s.ctxs.count = true → Reliable L → r = 1) ∧ (r = -1 → Reliable L → s'.caller = s.caller) ∧
      s'.ctxs.live = s.ctxs.live ∧ s'.blocks = s.blocks ∧ s'.freed = s.freed ∧ OnlyDigest k hash s.caller s'.caller := by
  rw [hostOCalculate_eq h1 h2, ← hostBDigestArgs_iff h1 h2]
  exact C52_calculate_result B k L hT env buffer _ hash _ s (areaOk_clip ha) (areaOk_clip hh)

/-- C85. Whatever calls of the library fail: if `calculate` returns 1 on such a host, the standard digest of the buffer is stored, and nothing else is changed. -/
theorem C85_calculate_digest (h1 : 16 ≤ hb) (h2 : hb ≤ 64) (B : Backend) (k : Kind) (L : Library) (Rep : L.State → List Byte → Prop) (hL : Contract L k Rep) (hT : Tame L k.hashSize) (env : OEnv) (i size o n : Nat) (s s' : OSt L.State)
    (ha : AreaOk s.caller (some i) size) (hh : AreaOk s.caller (some o) n) (hlen : size < 2 ^ 61) (hrun : hostOCalculate hb B L k.hashSize env (some i) size (some o) n s = .ok (1, s')) :
    s'.caller = overwrite s.caller o (k.std.digest (slice s.caller i size)) := by
  obtain ⟨r, t, e, -, himp, -⟩ := C85_calculate_result h1 h2 B k L hT env (some i) size (some o) n s ha hh
  rw [hrun] at e
  cases e
  obtain ⟨-, g2, -, g4, g5⟩ := (himp rfl).1
  rw [← updateLimit_eq] at g2
  rw [← outputLimit_eq] at g5
  rw [hostOCalculate_eq h1 h2, clipTo_le g2, clipTo_le g5] at hrun
  exact C52_calculate_digest B k L Rep hL hT env i size o n s s' ha hh hlen hrun

/-- C85. `calculate_hmac` on such hosts: for which arguments it returns 1; no undefined behaviour, everything released with the arrays cleared before, at most the digest area of the output written. -/
theorem C85_hmac_result (h1 : 16 ≤ hb) (h2 : hb ≤ 64) (B : Backend) (k : Kind) (L : Library) (hT : Tame L k.hashSize) (env : OEnv) (kh : List Byte) (hkh : kh.length = k.hashSize) (key : Option Nat) (keySize : Nat) (buffer : Option Nat)
    (size : Nat) (hmac : Option Nat) (n : Nat) (s : OSt L.State) (hk : AreaOk s.caller key keySize) (ha : AreaOk s.caller buffer size) (hh : AreaOk s.caller hmac n) :
    ∃ r s' fl, hostOCalculateHmac hb B L k.hashSize k.blockSize env kh key keySize buffer size hmac n s = .ok (r, s') ∧ (r = 1 ∨ r = -1) ∧
      (r = 1 → HostBHmacArgs hb B k key keySize buffer size hmac n ∧ (∀ j < allocations k keySize, env.allocOk (s.ctxs.count + j) = true) ∧ fl.length = 3) ∧
      (HostBHmacArgs hb B k key keySize buffer size hmac n → (∀ j < allocations k keySize, env.allocOk (s.ctxs.count + j) = true) → Reliable L → r = 1) ∧
      s'.ctxs.live = s.ctxs.live ∧ s'.blocks = s.blocks ∧ s'.freed = fl ++ s.freed ∧ (∀ e ∈ fl, e.2 = List.replicate k.blockSize 0) ∧ OnlyDigest k hmac s.caller s'.caller := by
  have hn : k.hashSize ≤ 64 := by cases k <;> decide
  have hblk : k.blockSize ≤ 128 := by cases k <;> decide
  rw [hostOCalculateHmac_eq h1 h2 B _ _ hn hblk]
  obtain ⟨r, s', fl, e, hr, himp, hsucc, hrest⟩ := C52_hmac_result B k L hT env kh hkh key (clipTo (hostMax hb) keySize) buffer (clipTo (hostMaxUpdate hb B) size) hmac (clipTo (hostMaxOutput hb B) n) s (areaOk_clip hk)
    (areaOk_clip ha) (areaOk_clip hh)
  have u := hostMaxUpdate_le h1 h2 B
  obtain ⟨-, p2, p3⟩ := hostPow h1 h2
  refine ⟨r, s', fl, e, hr, fun h => ?_, fun h hal hR => ?_, hrest⟩
  · obtain ⟨⟨f1, f2, f3, f4⟩, g, g'⟩ := himp h
    have hle : keySize ≤ hostMax hb := by
      by_contra hn
      rw [clipTo_gt (Nat.lt_of_not_le hn)] at f2
      exact absurd f2 (by decide)
    rw [clipTo_le hle] at f2 f3 g
    refine ⟨⟨f1, hle, fun hb' => ?_, (hostBDigestArgs_iff h1 h2).mp f4⟩, g, g'⟩
    have := f3 hb'
    rw [← updateLimit_eq]
    rcases B with (_ | _) | _ | _ <;> simp only [hostMaxUpdate, Backend.maxUpdate] at this ⊢ <;> assumption
  · obtain ⟨f1, f2, f3, f4⟩ := h
    have hle : keySize ≤ hostMax hb := f2
    rw [clipTo_le hle] at hsucc
    refine hsucc ⟨f1, ?_, fun hb' => ?_, (hostBDigestArgs_iff h1 h2).mpr f4⟩ hal hR
    · show keySize ≤ 2 ^ 63 - 1
      omega
    · have := f3 hb'
      rw [← updateLimit_eq] at this
      omega

/-- C85. Whatever calls of the library fail: if `calculate_hmac` returns 1 on such a host, the HMAC of RFC 2104 is stored, and nothing else is changed. -/
theorem C85_hmac_value (h1 : 16 ≤ hb) (h2 : hb ≤ 64) (B : Backend) (k : Kind) (L : Library) (Rep : L.State → List Byte → Prop) (hL : Contract L k Rep) (hT : Tame L k.hashSize) (env : OEnv) (kh : List Byte) (hkh : kh.length = k.hashSize)
    (key keySize i size o n : Nat) (s s' : OSt L.State) (hk : AreaOk s.caller (some key) keySize) (ha : AreaOk s.caller (some i) size) (hh : AreaOk s.caller (some o) n) (hkl : keySize < 2 ^ 61) (hml : size < 2 ^ 61 - 128)
    (hrun : hostOCalculateHmac hb B L k.hashSize k.blockSize env kh (some key) keySize (some i) size (some o) n s = .ok (1, s')) :
    s'.caller = overwrite s.caller o (Spec.hmac k.blockSize k.std.digest (slice s.caller key keySize) (slice s.caller i size)) := by
  obtain ⟨r, t, fl, e, -, himp, -⟩ := C85_hmac_result h1 h2 B k L hT env kh hkh (some key) keySize (some i) size (some o) n s hk ha hh
  rw [hrun] at e
  cases e
  obtain ⟨-, f2, -, -, g2, -, g4, g5⟩ := (himp rfl).1
  rw [← updateLimit_eq] at g2
  rw [← outputLimit_eq] at g5
  have hn : k.hashSize ≤ 64 := by cases k <;> decide
  have hblk : k.blockSize ≤ 128 := by cases k <;> decide
  rw [hostOCalculateHmac_eq h1 h2 B _ _ hn hblk, clipTo_le (show keySize ≤ hostMax hb from f2), clipTo_le g2, clipTo_le g5] at hrun
  exact C52_hmac_value B k L Rep hL hT env kh hkh key keySize i size o n s s' hk ha hh hkl hml hrun

/-- On every such host. -/
example (B : Backend) (k : Kind) (keySize : Nat) (h : keySize ≤ 128) (hb : Nat) (h1 : 16 ≤ hb) (h2 : hb ≤ 64) :
    ∃ s', hostOCalculateHmac hb B (exactLibrary k) k.hashSize k.blockSize ⟨fun _ => true, fun _ _ => 1⟩ (List.replicate k.hashSize 1) (some 10) keySize (some 120) 100 (some 60) 80 (ost1 _ []) = .ok (1, s') ∧
    s'.caller = overwrite (ost1 (List Byte) []).caller 60 (Spec.hmac k.blockSize k.std.digest (slice (ost1 (List Byte) []).caller 10 keySize) (slice (ost1 (List Byte) []).caller 120 100)) := by
  obtain ⟨r, s', fl, e, -, -, hs, -⟩ := C85_hmac_result h1 h2 B k (exactLibrary k) (exact_tame k) ⟨fun _ => true, fun _ _ => 1⟩ (List.replicate k.hashSize 1) (by simp) (some 10) keySize (some 120) 100 (some 60) 80 (ost1 _ [])
    (ost1_area _ _ _ _ (by omega)) (ost1_area _ _ _ _ (by omega)) (ost1_area _ _ _ _ (by omega))
  have hu := (hostMaxUpdate_le h1 h2 B).1
  have ho := (hostMaxOutput_le h1 h2 B).1
  have hk := (hostPow h1 h2).1
  have hk' := (hostPow h1 h2).2.2
  rw [updateLimit_eq] at hu
  rw [outputLimit_eq] at ho
  have hs64 : k.hashSize ≤ 64 := by cases k <;> decide
  obtain rfl := hs ⟨by simp, by show keySize ≤ hostMax hb; omega, fun _ => by omega, by simp, by omega, by simp, by omega, by omega⟩ (fun _ _ => rfl) (exact_reliable k)
  exact ⟨s', e, C85_hmac_value h1 h2 B k (exactLibrary k) _ (exact_contract k) (exact_tame k) _ _ (by simp) _ _ _ _ _ _ _ s' (ost1_area _ _ _ _ (by omega)) (ost1_area _ _ _ _ (by omega)) (ost1_area _ _ _ _ (by omega)) (by omega) (by omega) e⟩

example (B : Backend) (k : Kind) (hb : Nat) (h1 : 16 ≤ hb) (h2 : hb ≤ 64) :
    ∃ s', hostOCalculate hb B (exactLibrary k) k.hashSize ⟨fun _ => true, fun _ _ => 1⟩ (some 120) 100 (some 60) 80 (ost1 _ []) = .ok (1, s') ∧
    s'.caller = overwrite (ost1 (List Byte) []).caller 60 (k.std.digest (slice (ost1 (List Byte) []).caller 120 100)) := by
  obtain ⟨r, s', e, -, -, hs, -⟩ := C85_calculate_result h1 h2 B k (exactLibrary k) (exact_tame k) ⟨fun _ => true, fun _ _ => 1⟩ (some 120) 100 (some 60) 80 (ost1 _ []) (ost1_area _ _ _ _ (by omega)) (ost1_area _ _ _ _ (by omega))
  have hu := (hostMaxUpdate_le h1 h2 B).1
  have ho := (hostMaxOutput_le h1 h2 B).1
  rw [updateLimit_eq] at hu
  rw [outputLimit_eq] at ho
  have hs64 : k.hashSize ≤ 64 := by cases k <;> decide
  obtain rfl := hs ⟨by simp, by omega, by simp, by omega, by omega⟩ rfl (exact_reliable k)
  exact ⟨s', e, C85_calculate_digest h1 h2 B k (exactLibrary k) _ (exact_contract k) (exact_tame k) _ _ _ _ _ _ s' (ost1_area _ _ _ _ (by omega)) (ost1_area _ _ _ _ (by omega)) (by omega) e⟩

/-! ### hmacsum -/

theorem Correct.hostLaw (h : Correct ch L) (h1 : 17 ≤ hb) (h2 : hb ≤ 64) {E : Environment} (hT : E.tool.Ok) (limit : Nat) (hlim : ∀ k B, ch k = .crypto B → limit ≤ B.maxUpdate) (m : MixedMem L) :
    ∃ Rep : (k : Kind) → (L k).State → List Byte → Prop, Builds.Law (Contexts.mixedHost hb ch L E.tool) E.tool (∀ k, ch k ≠ .builtin → Reliable (L k)) limit
      (Builds.MixedRel ch L Rep (fun w => (m.mem.live w).map (·.1)) m.live) := by
  have : ∀ k, ∃ Rep : (L k).State → List Byte → Prop, ch k ≠ .builtin → Contract (L k) k Rep := fun k => by
    by_cases hk : ch k = .builtin
    · exact ⟨fun _ _ => True, fun h => absurd hk h⟩
    · obtain ⟨Rep, hr⟩ := (h k hk).1
      exact ⟨Rep, fun _ => hr⟩
  choose Rep hRep using this
  exact ⟨Rep, Builds.mixedHost_law h1 h2 hT hRep (fun k hk => (h k hk).2) limit hlim⟩

theorem host_buffer_size {T : Tool} (verbose : Bool) (dp : Nat) (hdp : dp ∉ sizeChars) (ds : List (Fin 10)) (sp : Bool) (f : Fin 9) (hf : f ≠ 1) (up : Bool) (u : SizeUnit) (h : Handle)
    (hv : decimal ds * u.base ^ f.1 < 2 ^ 64) :
    Builds.setBufferSize (.mixedHost hb ch L T) verbose (some dp) (sizeText dp ds none sp f up u) h =
      .ok (if decimal ds * u.base ^ f.1 ≤ 2 ^ (hb - 1) - 1 then (1, { h with bufferSize := decimal ds * u.base ^ f.1 }) else (0, h)) :=
  C74_buffer_size (T := T) verbose dp hdp ds sp f hf up u h hv

/-- C85. If hmacsum returns success in a build with crypto libraries on such a host, it printed the digests of the file, whatever calls of the libraries fail. -/
theorem C85_success (E : Environment) (hE : EnvOk E) (hL : Correct ch L) (h1 : 17 ≤ hb) (h2 : hb ≤ 64) (program : List Nat) (groups : List OptGroup) (source : List Nat) (rest : List (List Nat)) (hl : SourceLine groups source)
    (W : WorldOf (MixedMem L)) :
    ∃ x W', Builds.hmacsum E (.mixedHost hb ch L E.tool) (commandLine program groups (source :: rest)) W = .ok (x, W') ∧ (x.status = true →
      ∃ lines inp size, x.out = .version :: lines ∧ lines ≠ [] ∧ E.files source = some inp ∧ inp.size = some size ∧ size ≤ inp.content.length ∧
        (size < 2 ^ 61 → DigestLines (lastArgument 100 (optionsOf groups)) (inp.content.take size) lines)) := by
  rw [builds_run hE (parse_source E.mc program groups source rest hl)]
  obtain ⟨Rep, law⟩ := hL.hostLaw h1 h2 hE.tool _ (fun _ B _ => limit_small B) W.mem
  obtain ⟨x, W', extra, e, -, -, -, hr, -⟩ := Builds.runSource_ok hE.tool law hE.dp _ source [.version] W.blocks W (builds_start W)
  refine ⟨x, W', e, fun hx => ?_⟩
  obtain ⟨ds, -, g2, -, h4⟩ := hr.lines
  obtain ⟨hne, -, hout⟩ := g2 hx
  obtain ⟨inp, size, h5, h6, h7, h8⟩ := h4 hne
  exact ⟨ds, inp, size, hout, hne, h5, h6, h7, h8⟩

/-- C85. Whatever the exit status, each digest that is printed is that of the file. -/
theorem C85_no_wrong_digest (E : Environment) (hE : EnvOk E) (hL : Correct ch L) (h1 : 17 ≤ hb) (h2 : hb ≤ 64) (program : List Nat) (groups : List OptGroup) (source : List Nat) (rest : List (List Nat)) (hl : SourceLine groups source)
    (W : WorldOf (MixedMem L)) (x : Exit) (W' : WorldOf (MixedMem L)) (e : Builds.hmacsum E (.mixedHost hb ch L E.tool) (commandLine program groups (source :: rest)) W = .ok (x, W')) (k : Kind) (text : List Nat)
    (hk : Line.digest k text ∈ x.out) :
    ∃ inp size, E.files source = some inp ∧ inp.size = some size ∧ size ≤ inp.content.length ∧
      (size < 2 ^ 61 → Selected (lastArgument 100 (optionsOf groups)) k ∧ text = hex (k.std.digest (inp.content.take size))) := by
  rw [builds_run hE (parse_source E.mc program groups source rest hl)] at e
  obtain ⟨Rep, law⟩ := hL.hostLaw h1 h2 hE.tool _ (fun _ B _ => limit_small B) W.mem
  obtain ⟨x', V, extra, e', -, -, -, hr, -⟩ := Builds.runSource_ok hE.tool law hE.dp
    ⟨lastArgument 100 (optionsOf groups), lastArgument 112 (optionsOf groups), (optionsOf groups).any (·.1 = 118)⟩ source [.version] W.blocks W (builds_start W)
  rw [e] at e'
  cases e'
  obtain ⟨ds, g1, -, -, h4⟩ := hr.lines
  have hmem : Line.digest k text ∈ ds := by
    rcases g1 with g1 | ⟨g1, -⟩ <;> rw [g1] at hk <;> simpa using hk
  obtain ⟨inp, size, h5, h6, h7, h8⟩ := h4 (List.ne_nil_of_mem hmem)
  refine ⟨inp, size, h5, h6, h7, fun hlen => ?_⟩
  obtain ⟨sel, hsel, rfl⟩ := h8 hlen
  obtain ⟨k', hk', he⟩ := List.mem_map.mp hmem
  cases he
  exact ⟨(hsel k).mp (List.mem_filter.mp hk').2, rfl⟩

/-- C85. The program does succeed and print the digests if nothing fails; with libraries whose update takes `unsigned long` of 32 bits on a host with a wider `size_t`: if -p is not given or the file has less than 4 GiB. -/
theorem C85_completes (E : Environment) (hE : EnvOk E) (hL : Correct ch L) (h1 : 17 ≤ hb) (h2 : hb ≤ 64) (hrel : ∀ k, ch k ≠ .builtin → Reliable (L k)) (program : List Nat) (groups : List OptGroup) (source : List Nat) (rest : List (List Nat))
    (hl : SourceLine groups source) (W : WorldOf (MixedMem L))
    (inp : Input) (hfile : E.files source = some inp) (hsize : inp.size = some inp.content.length) (hreads : ∀ i, ∃ c, inp.reads i = some c ∧ 0 < c)
    (halloc : ∀ n, E.tool.alloc n = true) (hcalls : E.closeOk = true ∧ E.freeOk = true ∧ E.splitOk = true ∧ E.splitFreeOk = true) (harr : E.arrival = .never)
    (hbuf : BufferArgument E.dp (lastArgument 112 (optionsOf groups)))
    (hfit : (∀ k, ch k ≠ .crypto (.direct true)) ∨ lastArgument 112 (optionsOf groups) = none ∨ inp.content.length < 2 ^ 32) (hlen : inp.content.length < 2 ^ 61) :
    ∃ lines W', Builds.hmacsum E (.mixedHost hb ch L E.tool) (commandLine program groups (source :: rest)) W = .ok (⟨true, .version :: lines⟩, W') ∧
      DigestLines (lastArgument 100 (optionsOf groups)) inp.content lines := by
  rw [builds_run hE (parse_source E.mc program groups source rest hl)]
  obtain ⟨limit, hlim, hfits⟩ : ∃ limit, (∀ k B, ch k = .crypto B → limit ≤ B.maxUpdate) ∧
      (Builds.BufferFits E (.mixedHost hb ch L E.tool) ⟨lastArgument 100 (optionsOf groups), lastArgument 112 (optionsOf groups), (optionsOf groups).any (·.1 = 118)⟩ limit ∨ inp.content.length ≤ limit) := by
    rcases hfit with h | h | h
    · refine ⟨ssizeMax, fun k B hk => ?_, .inr (by
        have : ssizeMax = 2 ^ 63 - 1 := rfl
        omega)⟩
      rcases B with (_ | _) | _ | _
      · exact Nat.le_refl _
      · exact absurd hk (h k)
      · exact Nat.le_refl _
      · exact Nat.le_refl _
    · refine ⟨2 ^ 32 - 1, fun _ B _ => limit_small B, .inl fun h' ok n hb' e => ?_⟩
      unfold Builds.applyBufferSize at e
      rw [h] at e
      simp only [Res.ok.injEq, Prod.mk.injEq] at e
      have := congrArg Handle.bufferSize e.2
      simp only at this
      omega
    · exact ⟨2 ^ 32 - 1, fun _ B _ => limit_small B, .inr (by omega)⟩
  obtain ⟨Rep, law⟩ := hL.hostLaw h1 h2 hE.tool limit hlim W.mem
  obtain ⟨x, W', extra, e, -, -, -, hr, hgood⟩ := Builds.runSource_ok hE.tool law hE.dp
    ⟨lastArgument 100 (optionsOf groups), lastArgument 112 (optionsOf groups), (optionsOf groups).any (·.1 = 118)⟩ source [.version] W.blocks W (builds_start W)
  have hx : x.status = true := hgood inp _ hfile hsize (Nat.le_refl _) hreads halloc hrel harr hcalls.1 hcalls.2.1 hcalls.2.2.1 hcalls.2.2.2 (fun s hs h => by
    obtain ⟨c, ds, sp, f, up, u, hdp, hc, rfl, hf, hv0, hv⟩ := hbuf s hs
    rw [hdp, host_buffer_size _ c hc ds sp f hf up u h hv]
    by_cases hle : decimal ds * u.base ^ f.1 ≤ 2 ^ (hb - 1) - 1
    · exact ⟨1, decimal ds * u.base ^ f.1, by rw [if_pos hle], .inr ⟨rfl, hv0⟩⟩
    · exact ⟨0, h.bufferSize, by rw [if_neg hle], .inl rfl⟩) hfits
  obtain ⟨ds, -, g2, -, h4⟩ := hr.lines
  obtain ⟨hne, -, hout⟩ := g2 hx
  obtain ⟨inp', size, h5, h6, h7, h8⟩ := h4 hne
  rw [hfile] at h5
  cases h5
  rw [hsize] at h6
  cases h6
  have h8 := h8 hlen
  rw [List.take_length] at h8
  refine ⟨ds, W', ?_, h8⟩
  rw [e]
  obtain ⟨st, out⟩ := x
  simp only at hx hout
  subst hx hout
  rfl

/-- C85. Two builds on two hosts, each with libraries or not, print the same for the same file if both succeed. -/
theorem C85_same_output {hb' : Nat} {ch' : Kind → Choice} {L' : Kind → Library} (E E' : Environment) (hE : EnvOk E) (hE' : EnvOk E') (hL : Correct ch L) (h1 : 17 ≤ hb) (h2 : hb ≤ 64) (hL' : Correct ch' L') (h1' : 17 ≤ hb') (h2' : hb' ≤ 64) (program program' : List Nat) (groups : List OptGroup)
    (source : List Nat) (rest rest' : List (List Nat)) (hl : SourceLine groups source) (W : WorldOf (MixedMem L)) (V : WorldOf (MixedMem L'))
    (hfile : ∀ inp inp', E.files source = some inp → E'.files source = some inp' → inp.content = inp'.content ∧ inp.size = inp'.size ∧ inp.content.length < 2 ^ 61)
    (x y : Exit) (W' : WorldOf (MixedMem L)) (V' : WorldOf (MixedMem L')) (ex : Builds.hmacsum E (.mixedHost hb ch L E.tool) (commandLine program groups (source :: rest)) W = .ok (x, W'))
    (ey : Builds.hmacsum E' (.mixedHost hb' ch' L' E'.tool) (commandLine program' groups (source :: rest')) V = .ok (y, V')) (hx : x.status = true) (hy : y.status = true) : x.out = y.out := by
  obtain ⟨x1, W1, e1, k1⟩ := C85_success E hE hL h1 h2 program groups source rest hl W
  obtain ⟨y1, V1, e2, k2⟩ := C85_success E' hE' hL' h1' h2' program' groups source rest' hl V
  rw [ex] at e1
  cases e1
  rw [ey] at e2
  cases e2
  obtain ⟨l1, i1, s1, o1, -, f1, z1, b1, d1⟩ := k1 hx
  obtain ⟨l2, i2, s2, o2, -, f2, z2, b2, d2⟩ := k2 hy
  obtain ⟨g1, g2, g3⟩ := hfile i1 i2 f1 f2
  rw [z1, z2] at g2
  cases g2
  obtain ⟨p, hp, rfl⟩ := d1 (by omega)
  obtain ⟨q, hq, rfl⟩ := d2 (by omega)
  have : p = q := by
    funext k
    rw [Bool.eq_iff_iff, hp, hq]
  rw [o1, o2, this, g1]

/-- C85. For every command line: no undefined behaviour, all memory and contexts are released (up to one block after a failed allocation), success means that the output is the usage, the copyright or the digests of a file. -/
theorem C85_any_command_line (E : Environment) (hE : EnvOk E) (hL : Correct ch L) (h1 : 17 ≤ hb) (h2 : hb ≤ 64) (bodies : List (List Nat)) (hne : bodies ≠ []) (h0 : ∀ b ∈ bodies, 0 ∉ b) (hdash : ∀ b ∈ bodies.drop 1, b ≠ [45])
    (W : WorldOf (MixedMem L)) :
    ∃ x W' extra, Builds.hmacsum E (.mixedHost hb ch L E.tool) (argVector bodies) W = .ok (x, W') ∧ (x.status = true → x.out = [.version, .usage] ∨ x.out = [.version, .copyright] ∨
        ∃ types source lines inp size, x.out = .version :: lines ∧ lines ≠ [] ∧ E.files source = some inp ∧ inp.size = some size ∧ size ≤ inp.content.length ∧
          (size < 2 ^ 61 → DigestLines types (inp.content.take size) lines)) ∧
      (∀ w, ((W'.mem.mem.live w).map (·.1)).Perm ((W.mem.mem.live w).map (·.1))) ∧ (∀ k, W'.mem.live k = W.mem.live k) ∧ W'.blocks.Perm (extra ++ W.blocks) ∧ extra.length ≤ 1 ∧
      (extra ≠ [] → x.status = false ∧ ∃ n, E.tool.alloc n = false) := by
  obtain ⟨b, bs, rfl⟩ := List.exists_cons_of_ne_nil hne
  obtain ⟨p, hp⟩ := parse_ok E.mc (b :: bs) h0 hdash (((argVector (b :: bs)).map List.length).sum + 1) ⟨none, none, false⟩ optInit ⟨by simp [optInit], by simp [optInit], by simp [optInit]⟩ (by simp [optInit])
    (by
      simp only [OptState.work, optInit, remaining, List.drop_one, List.tail_cons, argVector, List.map_cons, List.sum_cons, List.map_map]
      have : (List.length ∘ fun x : List Nat => x ++ [0]) = fun b => b.length + 1 := by funext; simp
      rw [this]
      omega)
  cases p with
  | run o source =>
    rw [builds_run hE hp]
    obtain ⟨Rep, law⟩ := hL.hostLaw h1 h2 hE.tool _ (fun _ B _ => limit_small B) W.mem
    obtain ⟨x, W', extra, e, hN, hlen, hex, hr, -⟩ := Builds.runSource_ok hE.tool law hE.dp o source [.version] W.blocks W (builds_start W)
    obtain ⟨hm1, hm2⟩ := Builds.mixed_end hN.1
    refine ⟨x, W', extra, e, fun hx => .inr (.inr ?_), hm1, hm2, hN.2, hlen, hex⟩
    obtain ⟨ds, -, g2, -, h4⟩ := hr.lines
    obtain ⟨hne, -, hout⟩ := g2 hx
    obtain ⟨inp, size, h5, h6, h7, h8⟩ := h4 hne
    exact ⟨o.digests, source, ds, inp, size, hout, hne, h5, h6, h7, h8⟩
  | help => exact ⟨⟨true, [.version, .usage]⟩, W, [], by simp [Builds.hmacsum, hE.locale, hE.output, hp], fun _ => .inl rfl, fun _ => List.Perm.refl _, fun _ => rfl, List.Perm.refl _, by simp, by simp⟩
  | version => exact ⟨⟨true, [.version, .copyright]⟩, W, [], by simp [Builds.hmacsum, hE.locale, hE.output, hp], fun _ => .inr (.inl rfl), fun _ => List.Perm.refl _, fun _ => rfl, List.Perm.refl _, by simp, by simp⟩
  | invalid =>
    exact ⟨⟨false, [.version, .usage]⟩, W, [], by simp [Builds.hmacsum, hE.locale, hE.output, hp, Builds.onError, Builds.sumFree], (fun h => by cases h), fun _ => List.Perm.refl _, fun _ => rfl, List.Perm.refl _, by simp, by simp⟩
  | missing =>
    exact ⟨⟨false, [.version, .usage]⟩, W, [], by simp [Builds.hmacsum, hE.locale, hE.output, hp, Builds.onError, Builds.sumFree], (fun h => by cases h), fun _ => List.Perm.refl _, fun _ => rfl, List.Perm.refl _, by simp, by simp⟩

/-- C85. With signals at any moment: each digest that is printed is that of the file. -/
theorem C85_interrupted_no_wrong_digest (E : Environment) (Y : SystemCalls) (S : Signals) (hE : StartOk E Y) (hL : Correct ch L) (h1 : 17 ≤ hb) (h2 : hb ≤ 64) (program : List Nat) (groups : List OptGroup) (source : List Nat)
    (rest : List (List Nat)) (hl : SourceLine groups source) (W : WorldOf (MixedMem L)) (f : Builds.Fate (MixedMem L))
    (h : Builds.sHmacsum E (.mixedHost hb ch L E.tool) Y S (commandLine program groups (source :: rest)) W = .ok f) (k : Kind) (text : List Nat) (hk : Line.digest k text ∈ printedOf f) :
    ∃ inp size, E.files source = some inp ∧ inp.size = some size ∧ size ≤ inp.content.length ∧
      (size < 2 ^ 61 → Selected (lastArgument 100 (optionsOf groups)) k ∧ text = hex (k.std.digest (inp.content.take size))) := by
  refine builds_signal_run h (P := fun l => ∀ k text, l = .digest k text → ∃ inp size, E.files source = some inp ∧ inp.size = some size ∧ size ≤ inp.content.length ∧
      (size < 2 ^ 61 → Selected (lastArgument 100 (optionsOf groups)) k ∧ text = hex (k.std.digest (inp.content.take size)))) (fun a => ?_) _ hk k text rfl
  have hE' : EnvOk { E with arrival := a, outputOk := Y.bufferOut && Y.bufferErr } := ⟨hE.tool, hE.dp, hE.locale, by simp [hE.out, hE.err]⟩
  obtain ⟨x, W', e, -⟩ := C85_success _ hE' hL h1 h2 program groups source rest hl W
  exact ⟨x, W', e, fun l hm k text hk => C85_no_wrong_digest _ hE' hL h1 h2 program groups source rest hl W _ _ e k text (hk ▸ hm)⟩

/-- C81, for the builds with a crypto library on such hosts. No undefined behaviour with signals at any moment but those for which the code has it (between the release of the handle and the clearing of the pointer to it; the full claim is false there). -/
theorem C81_safe_mixed_host_partial (E : Environment) (Y : SystemCalls) (S : Signals) (hT : E.tool.Ok) (hdp : E.dp ≠ some 0) (hL : Correct ch L) (h1 : 17 ≤ hb) (h2 : hb ≤ 64) (hrel : S.count .releasing = 0)
    (hfree : Y.detach = true ∨ S.count .freeing = 0) (bodies : List (List Nat)) (hne : bodies ≠ []) (h0 : ∀ b ∈ bodies, 0 ∉ b) (hdash : ∀ b ∈ bodies.drop 1, b ≠ [45]) (W : WorldOf (MixedMem L)) :
    ∃ f, Builds.sHmacsum E (.mixedHost hb ch L E.tool) Y S (argVector bodies) W = .ok f := by
  obtain ⟨Rep, law⟩ := hL.hostLaw h1 h2 hT _ (fun _ B _ => limit_small B) W.mem
  exact Builds.sHmacsum_safe hT law hdp ⟨hrel, hfree⟩ bodies hne h0 hdash W (builds_start W)

/-- C85. A signal that arrives while the file is opened, read, or printed is not lost: the program exits with failure. -/
theorem C85_interrupted (E : Environment) (Y : SystemCalls) (S : Signals) (hE : StartOk E Y) (hL : Correct ch L) (h1 : 17 ≤ hb) (h2 : hb ≤ 64) (hr : S.resets = false) (hat : Y.attach = true)
    (hS : ∀ pt, 0 < S.count pt → pt = .opening ∨ (∃ n, pt = .read n) ∨ pt = .processed ∨ (∃ n, pt = .printing n) ∨ pt = .closing) (program : List Nat) (groups : List OptGroup) (source : List Nat)
    (rest : List (List Nat)) (hl : SourceLine groups source) (W : WorldOf (MixedMem L))
    (hsig : 0 < S.count .opening ∨ 0 < S.count (.read 0) ∨ 0 < S.count .processed ∨ 0 < S.count (.printing 0) ∨ 0 < S.count .closing ∨
      ∃ j inp size m, 0 < S.count (.read (j + 1)) ∧ BufferSizeUpTo (2 ^ (hb - 1) - 1) E.dp (lastArgument 112 (optionsOf groups)) m ∧ E.files source = some inp ∧ inp.size = some size ∧ j * m < size) :
    ∃ x q, Builds.sHmacsum E (.mixedHost hb ch L E.tool) Y S (commandLine program groups (source :: rest)) W = .ok (.exited x q) ∧ x.exit.status = false ∧
      (x.exit.out.getLast? = some .aborted ∨ ∃ m ∈ x.err, m.isWarning = false) := by
  obtain ⟨Rep, law⟩ := hL.hostLaw h1 h2 hE.tool _ (fun _ B _ => limit_small B) W.mem
  exact builds_interrupted law hE hr hat hS program groups source rest hl W (builds_start W) hsig

/-- C85. Whatever configure decides, on such a host: the build that results prints, if it succeeds, the digests of the file. -/
theorem C85_configured (S : System) (o : BuildOptions) (h : (configure S o).isSome = true) (h1 : 17 ≤ hb) (h2 : hb ≤ 64) :
    ∃ ch, Configured S o ch ∧ ∀ L : Kind → Library, Correct ch L → ∀ E : Environment, EnvOk E → ∀ (program : List Nat) (groups : List OptGroup) (source : List Nat) (rest : List (List Nat)), SourceLine groups source →
      ∀ W : WorldOf (MixedMem L), ∃ x W', Builds.hmacsum E (.mixedHost hb ch L E.tool) (commandLine program groups (source :: rest)) W = .ok (x, W') ∧ (x.status = true →
        ∃ lines inp size, x.out = .version :: lines ∧ lines ≠ [] ∧ E.files source = some inp ∧ inp.size = some size ∧ size ≤ inp.content.length ∧
          (size < 2 ^ 61 → DigestLines (lastArgument 100 (optionsOf groups)) (inp.content.take size) lines)) := by
  obtain ⟨ch, hc⟩ := configured_build S o h
  exact ⟨ch, hc, fun L hL E hE program groups source rest hl W => C85_success E hE hL h1 h2 program groups source rest hl W⟩

example := C85_same_as_64 (hb := 32) (by decide) (by decide) .evpEmbedded (exactLibrary .md5) 16 (fun _ => true) failCalls (by simp [failCalls, WithinLimit, sizeLimit]) none ⟨0, 0, []⟩

example := C85_released (hb := 16) (by decide) (by decide) (.direct false) (failingLibrary .md5) 16 (fun _ => true) [.init, .update (some [1]) 1, .update (some [1]) 32768] (by simp [BuildValid, updateLimit, sizeLimit]) ⟨0, 0, []⟩

example := (C85_refused (hb := 32) (.direct false) (exactLibrary .sha1) 20 (fun _ => true) 0 [1] (2 ^ 31) ⟨1, 1, [(0, .ctx (some []) .null)]⟩).1 (by decide)

example := C85_accepted (hb := 32) (by decide) (by decide) .evpAllocated (exactLibrary .md5) 16 (fun _ => true) [.init, .update (some [1]) 1, .finalize (some []) (2 ^ 32 - 1)]
  (by simp [WithinBuild, updateLimit, outputLimit, sizeLimit]) none ⟨0, 0, []⟩

example := C85_output_limit .sha1 .evpEmbedded (by simp)

example (B : Backend) (k : Kind) : ∃ rs p s' q t', run (algOf k) true (env0 k) (backendCalls k) none (st0 k.width) = .ok (rs, p, s') ∧
    hostBRun 32 B (exactLibrary k) k.hashSize (env0 k).allocOk ((backendCalls k).map (·.1)) none ⟨(st0 k.width).count, 0, []⟩ = .ok (rs, q, t') := by
  refine C85_refines (by decide) (by decide) B k (exactLibrary k) _ (exact_contract k) (exact_reliable k) true (env0 k) (backendCalls k) (backendCalls_valid k) (by simp [backendCalls, ApiCall.bytes, maxSize]) ?_ ?_ _ _ rfl ?_
  · have h1 := maxUpdate_ge B
    have h2 := maxOutput_ge B
    intro c hc
    simp only [backendCalls, List.mem_cons, List.not_mem_nil, or_false] at hc
    rcases hc with rfl | rfl | rfl | rfl | rfl | rfl | rfl | rfl | rfl | rfl | rfl | rfl <;> simp only [Backend.SameSize] <;> omega
  · simp [backendCalls, WithinLimit, sizeLimit]
  · intro rs p s' e
    obtain ⟨p', t, e', -⟩ := run_kind k true (env0 k) (backendCalls k) (st0 k.width) (backendCalls_valid k)
    rw [e'] at e
    obtain ⟨rfl, -, -⟩ : _ ∧ _ ∧ _ := by simpa using e
    rw [backendCalls_spec]
    simp [backendCalls, UsedOnce]

example := C85_success (hb := 32) bigEnv bigEnv_ok failing_correct (by decide) (by decide) (codes "hmacsum") groups0 (codes "file") [] line1 (mixed0 _)

/-- A file of more than 4 GiB on a 32-bit host. -/
example : ∃ lines W', Builds.hmacsum bigEnv (.mixedHost 32 (fun _ => .crypto .evpAllocated) exactLibrary bigEnv.tool) (commandLine (codes "hmacsum") groups0 [codes "file"]) (mixed0 _) = .ok (⟨true, .version :: lines⟩, W') ∧
    DigestLines (some (codes "sha1")) bigInput.content lines := by
  have hlen : bigInput.content.length = 2 ^ 32 + 5 := List.length_replicate
  exact C85_completes bigEnv bigEnv_ok (exact_right _) (by decide) (by decide) (fun k _ => exact_reliable k) (codes "hmacsum") groups0 (codes "file") [] line1 (mixed0 _) bigInput rfl (by rw [hlen]; rfl)
    (fun _ => ⟨100000, rfl, by decide⟩) (fun _ => rfl) ⟨rfl, rfl, rfl, rfl⟩ rfl
    (fun s hs => ⟨46, [1], false, 2, true, .none, rfl, by decide, by
      rw [show lastArgument 112 (optionsOf groups0) = some (codes "1M") by decide] at hs
      cases hs
      decide, by decide, by decide, by decide⟩) (.inl fun _ h => by cases h)
    (by rw [hlen]; decide)

example (x : Exit) (W' : WorldOf (MixedMem failingLibrary)) (e : Builds.hmacsum bigEnv (.mixedHost 32 choice0 failingLibrary bigEnv.tool) (commandLine (codes "hmacsum") groups0 [codes "file"]) (mixed0 _) = .ok (x, W')) (text : List Nat)
    (hk : Line.digest .sha1 text ∈ x.out) :=
  C85_no_wrong_digest bigEnv bigEnv_ok failing_correct (by decide) (by decide) (codes "hmacsum") groups0 (codes "file") [] line1 (mixed0 _) x W' e .sha1 text hk

example (x y : Exit) (W' : WorldOf (MixedMem exactLibrary)) (V' : WorldOf (MixedMem failingLibrary))
    (ex : Builds.hmacsum bigEnv (.mixedHost 32 choice0 exactLibrary bigEnv.tool) (commandLine (codes "hmacsum") groups0 [codes "file"]) (mixed0 _) = .ok (x, W'))
    (ey : Builds.hmacsum bigEnv (.mixedHost 64 choice0 failingLibrary bigEnv.tool) (commandLine (codes "hmacsum") groups0 [codes "file"]) (mixed0 _) = .ok (y, V')) (hx : x.status = true) (hy : y.status = true) : x.out = y.out :=
  C85_same_output bigEnv bigEnv bigEnv_ok bigEnv_ok exact_correct (by decide) (by decide) failing_correct (by decide) (by decide) _ _ groups0 (codes "file") [] [] line1 _ _ (fun inp inp' h h' => by
    cases h
    cases h'
    exact ⟨rfl, rfl, by rw [show bigInput.content.length = 2 ^ 32 + 5 from List.length_replicate]; decide⟩) x y W' V' ex ey hx hy

example := C85_any_command_line (hb := 32) bigEnv bigEnv_ok failing_correct (by decide) (by decide) [codes "hmacsum", codes "-d", codes "sha224", codes "file"] (by simp) (by decide) (by decide) (mixed0 _)

theorem safe85 : ∃ f, Builds.sHmacsum env1 (.mixedHost 32 choice0 failingLibrary env1.tool) sysCalls1 (signalsAt [.opening, .read 3, .printing 1]) (argVector [codes "hmacsum", codes "file"]) (mixed0 _) = .ok f :=
  C81_safe_mixed_host_partial env1 sysCalls1 (signalsAt [.opening, .read 3, .printing 1]) tool0_ok (by decide) failing_correct (by decide) (by decide) rfl (.inl rfl) [codes "hmacsum", codes "file"] (by simp) (by decide) (by decide) (mixed0 _)

example (f : Builds.Fate (MixedMem failingLibrary)) (h : Builds.sHmacsum env1 (.mixedHost 32 choice0 failingLibrary env1.tool) sysCalls1 (signalsAt [.opening, .read 3, .printing 1]) (commandLine (codes "hmacsum") groups0 [codes "file"]) (mixed0 _) = .ok f)
    (text : List Nat) (hk : Line.digest .sha1 text ∈ printedOf f) :=
  C85_interrupted_no_wrong_digest env1 sysCalls1 _ start1 failing_correct (by decide) (by decide) (codes "hmacsum") groups0 (codes "file") [] line1 (mixed0 _) f h .sha1 text hk

example := C85_interrupted (hb := 32) env1 sysCalls1 (signalsAt [.read 1, .read 1, .read 0, .printing 2]) start1 failing_correct (by decide) (by decide) rfl rfl (fun pt h => by
  cases pt <;> first | (exact .inl rfl) | (exact .inr (.inl ⟨_, rfl⟩)) | (exact .inr (.inr (.inl rfl))) | (exact .inr (.inr (.inr (.inl ⟨_, rfl⟩)))) | (exact .inr (.inr (.inr (.inr rfl)))) | (exact absurd h (by decide)))
  (codes "hmacsum") groups0 (codes "file") [] line1 (mixed0 _) (.inr (.inl (by decide)))

example := C85_configured (hb := 32) openssl3 noOptions systems_configured.1 (by decide) (by decide)

end Props

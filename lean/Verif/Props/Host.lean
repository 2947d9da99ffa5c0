import Verif.Proofs.Host
import Verif.Props.Hmac
import Verif.Props.Streaming
/-! C67: hosts on which `size_t` has fewer than 64 bits. All theorems are for every width from 16 to 64 bits. -/

namespace Props

open Model Spec

/-- The largest value of `ssize_t` on a host whose `size_t` has `hb` bits. -/
def sizeLimit (hb : Nat) : Nat := 2 ^ (hb - 1) - 1

/-- A non-NULL area of at most that many bytes has the stated size. (Larger areas are not accessed.) -/
def HostArea (hb : Nat) (mem : List Byte) (p : Option Nat) (n : Nat) : Prop := ∀ o, p = some o → n ≤ sizeLimit hb → o + n ≤ mem.length

/-- The caller's obligation for a call on such a host. -/
def HostValid (hb : Nat) : ApiCall → Prop
  | .update (some b) size => size ≤ sizeLimit hb → size ≤ b.length
  | .finalize (some o) size => size ≤ sizeLimit hb → size ≤ o.length
  | _ => True

/-- Obligations of the calls of a program, and that the stack arrays have their declared sizes. -/
def HostCalls (hb : Nat) (k : Kind) (calls : List (ApiCall × Scr k.width)) : Prop := ∀ c ∈ calls, HostValid hb c.1 ∧ Kind.Junk k c.2

/-- The sizes a program uses are at most the limit. -/
def WithinLimit (hb : Nat) : ApiCall → Prop
  | .update _ size => size ≤ sizeLimit hb
  | .finalize _ size => size ≤ sizeLimit hb
  | _ => True

theorem sizeLimit_eq (hb : Nat) : hostMax hb = sizeLimit hb := rfl

theorem sizeLimit_le {hb : Nat} (h1 : 16 ≤ hb) (h2 : hb ≤ 64) : 2 ^ 15 - 1 ≤ sizeLimit hb ∧ sizeLimit hb ≤ maxSize := by
  obtain ⟨p1, p2, p3⟩ := hostPow h1 h2
  rw [sizeLimit_eq] at p3
  unfold maxSize
  omega

theorem clip_maxSize {hb n : Nat} (h1 : 16 ≤ hb) (h2 : hb ≤ 64) : clip hb n ≤ maxSize ↔ n ≤ sizeLimit hb := by
  have := sizeLimit_le h1 h2
  unfold clip
  rw [sizeLimit_eq]
  unfold maxSize at this ⊢
  split <;> omega

theorem clipCall_valid {hb : Nat} {c : ApiCall} (h1 : 16 ≤ hb) (h2 : hb ≤ 64) (h : HostValid hb c) : (clipCall hb c).Valid := by
  match c, h with
  | .init, _ => trivial
  | .initNull, _ => trivial
  | .free, _ => trivial
  | .freeNull, _ => trivial
  | .update none _, _ => trivial
  | .finalize none _, _ => trivial
  | .update (some b) n, h =>
    intro hn
    have hn := (clip_maxSize h1 h2).mp hn
    rw [clip_le (by rw [sizeLimit_eq]; exact hn)]
    exact h hn
  | .finalize (some b) n, h =>
    intro hn
    have hn := (clip_maxSize h1 h2).mp hn
    rw [clip_le (by rw [sizeLimit_eq]; exact hn)]
    exact h hn

theorem clipCall_within {hb : Nat} {c : ApiCall} (h : WithinLimit hb c) : clipCall hb c = c := by
  match c, h with
  | .init, _ => rfl
  | .initNull, _ => rfl
  | .free, _ => rfl
  | .freeNull, _ => rfl
  | .update _ n, h => exact congrArg _ (clip_le (by rw [sizeLimit_eq]; exact h))
  | .finalize _ n, h => exact congrArg _ (clip_le (by rw [sizeLimit_eq]; exact h))

theorem hostRun_clip {hb : Nat} (h1 : 16 ≤ hb) (h2 : hb ≤ 64) (k : Kind) (u : Bool) (env : Env k.width) (calls : List (ApiCall × Scr k.width)) (s : St k.width)
    (hv : HostCalls hb k calls) : hostRun hb (algOf k) u env calls none s = run (algOf k) u env (calls.map fun c => (clipCall hb c.1, c.2)) none s := by
  obtain ⟨enc, L⟩ := lawful k
  exact hostRun_eq h1 h2 L u env s.live calls none s ⟨none, s.count⟩ (fun c hc => ⟨clipCall_valid h1 h2 (hv c hc).1, scrOk_of_junk (hv c hc).2⟩) ⟨rfl, rfl⟩

theorem clip_validCalls {hb : Nat} (h1 : 16 ≤ hb) (h2 : hb ≤ 64) {k : Kind} {calls : List (ApiCall × Scr k.width)} (hv : HostCalls hb k calls) :
    ∀ c ∈ calls.map fun c => (clipCall hb c.1, c.2), c.1.Valid ∧ Kind.Junk k c.2 := by
  intro c hc
  obtain ⟨d, hd, rfl⟩ := List.mem_map.mp hc
  exact ⟨clipCall_valid h1 h2 (hv d hd).1, (hv d hd).2⟩

/-- C67. A program all of whose sizes are at most the limit of the host has the same results, the same outputs and the same memory as on a 64-bit host. -/
theorem C67_same_as_64 (hb : Nat) (h1 : 16 ≤ hb) (h2 : hb ≤ 64) (k : Kind) (u : Bool) (env : Env k.width) (calls : List (ApiCall × Scr k.width)) (s : St k.width)
    (hv : HostCalls hb k calls) (hw : ∀ c ∈ calls, WithinLimit hb c.1) :
    hostRun hb (algOf k) u env calls none s = run (algOf k) u env calls none s := by
  rw [hostRun_clip h1 h2 k u env calls s hv]
  congr 1
  rw [List.map_congr_left (g := id) (fun c hc => by rw [clipCall_within (hw c hc)]; rfl), List.map_id]

/-- C67. Streaming a message in chunks of at most the limit gives the standard digest, whatever the length of the whole message (for SHA-512 shorter than 2^61 bytes): it may be
longer than the address space of the host. -/
theorem C67_stream (hb : Nat) (h1 : 16 ≤ hb) (h2 : hb ≤ 64) (k : Kind) (u : Bool) (env : Env k.width) (s : St k.width) (chunks : List (List Byte × Scr k.width)) (last : Scr k.width)
    (out : List Byte) (n : Nat) (hal : env.allocOk s.count = true) (hc : ∀ c ∈ chunks, c.1.length ≤ sizeLimit hb ∧ Kind.Junk k c.2) (hj : Kind.Junk k last)
    (hn : k.hashSize ≤ n ∧ n ≤ sizeLimit hb) (ho : n ≤ out.length) (hlen : k.LengthOk (message chunks).length) :
    ∃ slot s', hostRun hb (algOf k) u env (hashCalls chunks last out n) none s =
      .ok (goodReplies chunks.length (k.std.digest (message chunks) ++ out.drop k.hashSize), slot, s') := by
  have hm := sizeLimit_le h1 h2
  rw [C67_same_as_64 hb h1 h2 k u env _ s]
  · exact stream_std k u env s chunks last out n hal ⟨fun c h => ⟨le_trans (hc c h).1 hm.2, (hc c h).2⟩, hj, ⟨hn.1, le_trans hn.2 hm.2⟩, ho⟩ hlen
  · intro c h
    simp only [hashCalls, List.mem_cons, List.mem_append, List.mem_map, List.not_mem_nil, or_false] at h
    rcases h with rfl | ⟨x, hx, rfl⟩ | rfl
    · exact ⟨trivial, hj⟩
    · exact ⟨fun _ => Nat.le_refl _, (hc x hx).2⟩
    · exact ⟨fun _ => ho, hj⟩
  · intro c h
    simp only [hashCalls, List.mem_cons, List.mem_append, List.mem_map, List.not_mem_nil, or_false] at h
    rcases h with rfl | ⟨x, hx, rfl⟩ | rfl
    · trivial
    · exact (hc x hx).1
    · exact hn.2

/-- Any number of chunks of 65536 bytes below 2^45: a message of up to 2^61 bytes, more than a 32-bit host can address. -/
example (k : Kind) (m : Nat) (hm : m < 2 ^ 45) := C67_stream 32 (by omega) (by omega) k true (env0 k) (st0 k.width) (List.replicate m (List.replicate 65536 7, junk0 k)) (junk0 k)
  (List.replicate 70 0) 70 rfl (fun c hc => by rw [List.eq_of_mem_replicate hc]; exact ⟨by simp only [List.length_replicate]; decide, junk0_ok k⟩) (junk0_ok k)
  ⟨by cases k <;> decide, by decide⟩ (by simp) (by
    have : (message (List.replicate m (List.replicate 65536 (7 : Byte), junk0 k))).length = m * 65536 := by
      simp only [message, List.map_replicate, List.length_flatten, List.length_replicate, List.sum_replicate_nat]
    rw [this]
    cases k <;> first | trivial | (show m * 65536 < 2 ^ 61; omega))

/-- C67. After any calls, an update or a finalize with a size above the limit of the host returns -1, and the context variable, the memory and the output area stay as they are. -/
theorem C67_too_large (hb : Nat) (h1 : 16 ≤ hb) (h2 : hb ≤ 64) (k : Kind) (u : Bool) (env : Env k.width) (calls : List (ApiCall × Scr k.width)) (s : St k.width)
    (hv : HostCalls hb k calls) :
    ∃ rs slot s', hostRun hb (algOf k) u env calls none s = .ok (rs, slot, s') ∧ ∀ (buf : Option (List Byte)) (size : Nat) (scr : Scr k.width), sizeLimit hb < size →
      hostStep hb (algOf k) u env (.update buf size) scr slot s' = .ok (⟨-1, none⟩, slot, s') ∧
      hostStep hb (algOf k) u env (.finalize buf size) scr slot s' = .ok (⟨-1, buf⟩, slot, s') := by
  obtain ⟨slot, s', e, hrel, -, -⟩ := run_kind k u env _ s (clip_validCalls h1 h2 hv)
  obtain ⟨enc, L⟩ := lawful k
  refine ⟨_, slot, s', (hostRun_clip h1 h2 k u env calls s hv).trans e, ?_⟩
  obtain ⟨hatt, hrel⟩ := hrel
  intro buf size scr hs
  rw [← sizeLimit_eq] at hs
  cases slot with
  | none => exact ⟨rfl, rfl⟩
  | some p =>
    generalize (specRun k env.allocOk ((calls.map fun c => (clipCall hb c.1, c.2)).map (·.1)) ⟨none, s.count⟩).2 = a at hrel
    match ha : a.slot, hrel with
    | some (h0, m), hrel =>
      simp only at hrel
      obtain ⟨-, hh0, c, hl, hr⟩ := hrel
      constructor
      · simp only [hostStep]
        rw [hostHUpdate_big h1 h2 (algOf k) u _ s' p c (by simp [hl, getKey]) buf buf size hs, hUpdate_bad (algOf k) u _ s' p c s.live buf _ hl (.inr (by unfold ssizeMax; omega))]
        rfl
      · simp only [hostStep]
        rw [hostHFinalize_big L h1 h2 u _ s' p c s.live hl buf size hs]
        rfl
    | none, hrel => simp [ha] at hrel

example (k : Kind) : HostCalls 32 k [(.init, junk0 k), (.update (some [1, 2, 3]) 3, junk0 k), (.update (some []) (2 ^ 31), junk0 k), (.finalize (some (List.replicate 64 0)) 64, junk0 k)] := by
  intro c hc
  simp only [List.mem_cons, List.not_mem_nil, or_false] at hc
  rcases hc with rfl | rfl | rfl | rfl
  · exact ⟨trivial, junk0_ok k⟩
  · exact ⟨fun _ => by simp, junk0_ok k⟩
  · exact ⟨fun h => absurd h (by decide), junk0_ok k⟩
  · exact ⟨fun _ => by simp, junk0_ok k⟩

theorem hostArea_clip {hb : Nat} (h1 : 16 ≤ hb) (h2 : hb ≤ 64) {mem : List Byte} {p : Option Nat} {n : Nat} (h : HostArea hb mem p n) : AreaOk mem p (clip hb n) := by
  intro o ho hn
  have hn := (clip_maxSize h1 h2).mp hn
  rw [clip_le (by rw [sizeLimit_eq]; exact hn)]
  exact h o ho hn

theorem clip_hashSize {hb n : Nat} (h1 : 16 ≤ hb) (h2 : hb ≤ 64) (k : Kind) : k.hashSize ≤ clip hb n ↔ k.hashSize ≤ n := by
  have := sizeLimit_le h1 h2
  have hk : k.hashSize ≤ 64 := by cases k <;> decide
  unfold clip
  rw [sizeLimit_eq]
  split <;> omega

/-- C67. `calculate` on such a host: 1 exactly if both pointers are given, both sizes are at most the limit, the output is large enough and the allocation succeeds; then the digest
of the buffer is stored; otherwise -1 and the caller's memory is unchanged. No undefined behaviour, and the live heap is as before. -/
theorem C67_calculate (hb : Nat) (h1 : 16 ≤ hb) (h2 : hb ≤ 64) (k : Kind) (u : Bool) (env : Env k.width) (s : St k.width) (buffer : Option Nat) (size : Nat) (hash : Option Nat) (n : Nat)
    (hj : Kind.Junk k env.scr) (hbuf : HostArea hb s.caller buffer size) (hh : HostArea hb s.caller hash n) (hlen : k.LengthOk size) :
    ∃ r s', hostCalculate hb (algOf k) u env buffer size hash n s = .ok (r, s') ∧ (r = 1 ∨ r = -1) ∧
      (r = 1 ↔ (buffer ≠ none ∧ size ≤ sizeLimit hb ∧ hash ≠ none ∧ k.hashSize ≤ n ∧ n ≤ sizeLimit hb) ∧ env.allocOk s.count = true) ∧
      (r = 1 → ∀ i o, buffer = some i → hash = some o → s'.caller = overwrite s.caller o (k.std.digest (slice s.caller i size))) ∧
      (r = -1 → s'.caller = s.caller) ∧ s'.live = s.live := by
  obtain ⟨enc, L⟩ := lawful k
  have e0 := hostCalculate_eq h1 h2 L u env (scrOk_of_junk hj) buffer size hash n s (hostArea_clip h1 h2 hbuf)
  obtain ⟨r, s', e, hr, hiff, hmem, hlive, -, -⟩ := C18_calculate_result k u env s buffer (clip hb size) hash (clip hb n) hj (hostArea_clip h1 h2 hbuf) (hostArea_clip h1 h2 hh)
  have hda : DigestArgs k buffer (clip hb size) hash (clip hb n) ↔ (buffer ≠ none ∧ size ≤ sizeLimit hb ∧ hash ≠ none ∧ k.hashSize ≤ n ∧ n ≤ sizeLimit hb) := by
    unfold DigestArgs
    rw [clip_maxSize h1 h2, clip_maxSize h1 h2, clip_hashSize h1 h2]
  rw [hda] at hiff
  refine ⟨r, s', e0.trans e, hr, hiff, ?_, hmem, hlive⟩
  rintro rfl i o rfl rfl
  obtain ⟨⟨-, g1, -, g2, g3⟩, hal⟩ := hiff.mp rfl
  have m := (sizeLimit_le h1 h2).2
  obtain ⟨t, et, ht⟩ := C08_calculate_standard_partial k u env s i size o n hj hal (hbuf i rfl g1) (hh o rfl g3) (le_trans g1 m) ⟨g2, le_trans g3 m⟩ (by rintro rfl; exact hlen)
  rw [clip_le (by rw [sizeLimit_eq]; exact g1), clip_le (by rw [sizeLimit_eq]; exact g3)] at e
  rw [e] at et
  cases et
  exact ht

example (k : Kind) : ∃ s', hostCalculate 32 (algOf k) false (env0 k) (some 5) 203 (some 100) 70 (st1 k.width) = .ok (1, s') := by
  obtain ⟨r, s', e, -, h, -⟩ := C67_calculate 32 (by omega) (by omega) k false (env0 k) (st1 k.width) (some 5) 203 (some 100) 70 (junk0_ok k)
    (by rintro _ ⟨⟩ -; rw [st1_len]; omega) (by rintro _ ⟨⟩ -; rw [st1_len]; omega) (by cases k <;> decide)
  rw [h.mpr ⟨⟨by simp, by decide, by simp, by cases k <;> decide, by decide⟩, rfl⟩] at e
  exact ⟨s', e⟩

/-- A buffer of 2^31 bytes is refused by a 32-bit host. -/
example (k : Kind) : ∃ s', hostCalculate 32 (algOf k) false (env0 k) (some 5) (2 ^ 31) (some 100) 70 (st1 k.width) = .ok (-1, s') ∧ s'.caller = (st1 k.width).caller := by
  obtain ⟨r, s', e, hr, h, -, hm, -⟩ := C67_calculate 32 (by omega) (by omega) k false (env0 k) (st1 k.width) (some 5) (2 ^ 31) (some 100) 70 (junk0_ok k)
    (by rintro _ ⟨⟩ h; exact absurd h (by decide)) (by rintro _ ⟨⟩ -; rw [st1_len]; omega) (by cases k <;> decide)
  have hne : r ≠ 1 := fun h1 => absurd (h.mp h1).1.2.1 (by decide)
  obtain rfl := hr.resolve_left hne
  exact ⟨s', e, hm rfl⟩

/-- C67. `calculate_hmac` on such a host: 1 exactly if the pointers are given, the three sizes are at most the limit, the output is large enough and the five or six allocations
succeed; then the RFC 2104 HMAC is stored; otherwise -1. No undefined behaviour, and the live heap is as before. -/
theorem C67_hmac (hb : Nat) (h1 : 16 ≤ hb) (h2 : hb ≤ 64) (k : Kind) (u : Bool) (env : Env k.width) (kh : List Byte) (s : St k.width) (key : Option Nat) (keySize : Nat)
    (buffer : Option Nat) (size : Nat) (hmac : Option Nat) (n : Nat) (hj : Kind.Junk k env.scr) (hkh : kh.length = k.hashSize)
    (hkey : HostArea hb s.caller key keySize) (hbuf : HostArea hb s.caller buffer size) (hh : HostArea hb s.caller hmac n)
    (hlen : k = .sha512 → keySize < 2 ^ 61 ∧ size < 2 ^ 61 - 128) :
    ∃ r l' s', hostCalculateHmac hb (algOf k) u env kh key keySize buffer size hmac n s = .ok (r, l', s') ∧ (r = 1 ∨ r = -1) ∧
      (r = 1 ↔ (key ≠ none ∧ keySize ≤ sizeLimit hb ∧ buffer ≠ none ∧ size ≤ sizeLimit hb ∧ hmac ≠ none ∧ k.hashSize ≤ n ∧ n ≤ sizeLimit hb) ∧
        ∀ j < (if keySize ≤ k.blockSize then 5 else 6), env.allocOk (s.count + j) = true) ∧
      (r = 1 → ∀ a i o, key = some a → buffer = some i → hmac = some o →
        s'.caller = overwrite s.caller o (Spec.hmac k.blockSize k.std.digest (slice s.caller a keySize) (slice s.caller i size))) ∧
      s'.live = s.live := by
  obtain ⟨enc, L⟩ := lawful k
  have m := (sizeLimit_le h1 h2).2
  have e0 := hostCalculateHmac_eq h1 h2 L u env (scrOk_of_junk hj) kh (by rw [hkh, algOf_hashSize]) key keySize buffer size hmac n s
    (hostArea_clip h1 h2 hkey) (hostArea_clip h1 h2 hbuf) (hostArea_clip h1 h2 hh)
  have hc : HmacCall k env kh s key (clip hb keySize) buffer (clip hb size) hmac (clip hb n) :=
    ⟨hostArea_clip h1 h2 hkey, hostArea_clip h1 h2 hbuf, hostArea_clip h1 h2 hh, hj, hkh⟩
  obtain ⟨r, l', s', e, hr, hiff⟩ := C20_hmac_result k u env kh s key (clip hb keySize) buffer (clip hb size) hmac (clip hb n) hc
  have hlive : s'.live = s.live := by
    obtain ⟨r2, l2, s2, fl, e2, hl, -⟩ := C19_hmac_no_leak k u env kh s key (clip hb keySize) buffer (clip hb size) hmac (clip hb n) hc
    rw [e] at e2
    cases e2
    exact hl
  have hda : HmacArgs k key (clip hb keySize) buffer (clip hb size) hmac (clip hb n) ↔
      (key ≠ none ∧ keySize ≤ sizeLimit hb ∧ buffer ≠ none ∧ size ≤ sizeLimit hb ∧ hmac ≠ none ∧ k.hashSize ≤ n ∧ n ≤ sizeLimit hb) := by
    unfold HmacArgs DigestArgs
    rw [clip_maxSize h1 h2, clip_maxSize h1 h2, clip_maxSize h1 h2, clip_hashSize h1 h2]
  have hiff' : r = 1 ↔ (key ≠ none ∧ keySize ≤ sizeLimit hb ∧ buffer ≠ none ∧ size ≤ sizeLimit hb ∧ hmac ≠ none ∧ k.hashSize ≤ n ∧ n ≤ sizeLimit hb) ∧
        ∀ j < (if keySize ≤ k.blockSize then 5 else 6), env.allocOk (s.count + j) = true := by
    rw [hiff, hda]
    constructor
    · rintro ⟨ha, hal⟩
      refine ⟨ha, fun j hj => hal j ?_⟩
      rw [clip_le (by rw [sizeLimit_eq]; exact ha.2.1)]
      exact hj
    · rintro ⟨ha, hal⟩
      refine ⟨ha, fun j hj => hal j ?_⟩
      rw [clip_le (by rw [sizeLimit_eq]; exact ha.2.1)] at hj
      exact hj
  refine ⟨r, l', s', e0.trans e, hr, hiff', ?_, hlive⟩
  rintro rfl a i o rfl rfl rfl
  obtain ⟨⟨-, g0, -, g1, -, g2, g3⟩, hal⟩ := hiff'.mp rfl
  rw [clip_le (by rw [sizeLimit_eq]; exact g0), clip_le (by rw [sizeLimit_eq]; exact g1), clip_le (by rw [sizeLimit_eq]; exact g3)] at e hc
  obtain ⟨l2, t, et, ht⟩ := C09_hmac_standard_partial k u env kh s a keySize i size o n hc ⟨by simp, le_trans g0 m, by simp, le_trans g1 m, by simp, g2, le_trans g3 m⟩ hal hlen
  rw [e] at et
  cases et
  exact ht

example (k : Kind) (ks : Nat) (h : ks ≤ 200) : ∃ l' s', hostCalculateHmac 32 (algOf k) true (env0 k) (List.replicate k.hashSize 1) (some 10) ks (some 120) 100 (some 60) 80 (st1 k.width) = .ok (1, l', s') := by
  obtain ⟨r, l', s', e, -, hr, -⟩ := C67_hmac 32 (by omega) (by omega) k true (env0 k) (List.replicate k.hashSize 1) (st1 k.width) (some 10) ks (some 120) 100 (some 60) 80 (junk0_ok k) (by simp)
    (by rintro _ ⟨⟩ -; rw [st1_len]; omega) (by rintro _ ⟨⟩ -; rw [st1_len]; omega) (by rintro _ ⟨⟩ -; rw [st1_len]; omega) (fun _ => ⟨by omega, by omega⟩)
  rw [hr.mpr ⟨⟨by simp, by unfold sizeLimit; omega, by simp, by decide, by simp, by cases k <;> decide, by decide⟩, fun _ _ => rfl⟩] at e
  exact ⟨l', s', e⟩

end Props

import Verif.Props.FileCollision
import Verif.Props.HostPrograms
import Verif.Props.Host
/-! C95: hmacsum, the contexts and one-call functions of the C library and the Python module agree, in every build and on hosts of every width. -/

namespace Props

open Model Spec Configure

/-- The ways to get a digest: hmacsum, a context of the C library, its one-call function (the project's code; with a crypto library), an object of the Python module, its one-call method. -/
inductive Interface
  | hmacsum | context | calculate | calculateWith | python | pythonCalculate

/-- The ways to get an HMAC: the one-call function of the C library (the project's code; with a crypto library) and that of the Python module. -/
inductive HmacInterface
  | calculate | calculateWith | python

/-- Some build on some host, with the project's code or a crypto library that may fail, gives `d` as the digest `k` of the bytes `m`:
hmacsum prints it for a file with these bytes; finalize of a context stores it after these bytes were accepted, whatever else the program does with this and other contexts; the one-call function stores it; or the Python module returns it,
from `finalize` of an object or from the one-call method. -/
inductive Reports (k : Kind) (m d : List Byte) : Interface → Prop
  | hmacsum (E : Environment) (source text : List Nat) (hp : Prints E source k text) (hf : FileBytes E source m) (hd : text = hex d) : Reports k m d .hmacsum
  | context (hb : Nat) (h1 : 16 ≤ hb) (h2 : hb ≤ 64) (ch : Kind → Choice) (L : Kind → Library) (hL : Correct ch L) (T : Tool) (hT : ∀ k n, Kind.Junk k (T.scr k n)) (kinds : Nat → Kind) (calls : List (Nat × ApiCall))
      (hv : ∀ c ∈ calls, HostCallOk hb (ch (kinds c.1)) c.2) (mem mem' : MixedMem L) (hm : mem.Wf) (rs : List Reply) (slots : Nat → Option Nat) (e : Builds.multi (.mixedHost hb ch L T) kinds 0 calls (fun _ => none) mem = .ok (rs, slots, mem'))
      (j i : Nat) (o out : List Byte) (size : Nat) (r : Reply) (hj : calls[j]? = some (i, .finalize (some o) size)) (hr : rs[j]? = some r) (hc : r.code = 1) (hk : kinds i = k)
      (ha : accepted (historyOf i ((calls.zip rs).take j)) none = some m) (ho : r.out = some out) (hd : out.take k.hashSize = d) : Reports k m d .context
  | calculate (hb : Nat) (h1 : 16 ≤ hb) (h2 : hb ≤ 64) (u : Bool) (env : Env k.width) (s s' : St k.width) (i size o n : Nat) (hj : Kind.Junk k env.scr) (hbuf : HostArea hb s.caller (some i) size)
      (hh : HostArea hb s.caller (some o) n) (e : hostCalculate hb (algOf k) u env (some i) size (some o) n s = .ok (1, s')) (hm : slice s.caller i size = m) (hd : slice s'.caller o k.hashSize = d) : Reports k m d .calculate
  | calculateWith (hb : Nat) (h1 : 16 ≤ hb) (h2 : hb ≤ 64) (B : Backend) (L : Library) (hL : ∃ Rep, Contract L k Rep) (hT : Tame L k.hashSize) (env : OEnv) (s s' : OSt L.State) (i size o n : Nat)
      (ha : AreaOk s.caller (some i) size) (hh : AreaOk s.caller (some o) n) (e : hostOCalculate hb B L k.hashSize env (some i) size (some o) n s = .ok (1, s')) (hm : slice s.caller i size = m)
      (hd : slice s'.caller o k.hashSize = d) : Reports k m d .calculateWith
  | python (hb : Nat) (h1 : 16 ≤ hb) (h2 : hb ≤ 64) (ch : Kind → Choice) (L : Kind → Library) (hL : Correct ch L) (kinds : Nat → Kind) (u : Kind → Bool) (al : Nat → Bool) (prog : List (PyOp × PyEnv)) (st st' : PyState (MixedMem L))
      (hs : PyBuildStart st) (he : ∀ x ∈ prog, x.2.Ok ∧ x.1.AtMost (sizeLimit hb)) (rs : List PyResult) (e : PyBuilds.program (.mixedHost hb ch L u al) kinds prog st = .ok (rs, st')) (j i : Nat) (env : PyEnv)
      (hj : prog[j]? = some (.finalize i true, env)) (hk : kinds i = k) (hm : pyMessage i ((pyTrace prog rs).take j) = some m) (hd : rs[j]? = some (.bytes d)) : Reports k m d .python
  | pythonCalculate (hb : Nat) (h1 : 16 ≤ hb) (h2 : hb ≤ 64) (ch : Kind → Choice) (L : Kind → Library) (hL : Correct ch L) (kinds : Nat → Kind) (u : Kind → Bool) (al : Nat → Bool) (prog : List (PyOp × PyEnv))
      (st st' : PyState (MixedMem L)) (hs : PyBuildStart st) (he : ∀ x ∈ prog, x.2.Ok ∧ x.1.AtMost (sizeLimit hb)) (rs : List PyResult) (e : PyBuilds.program (.mixedHost hb ch L u al) kinds prog st = .ok (rs, st')) (j : Nat) (env : PyEnv)
      (hj : prog[j]? = some (.calculate k (some (.bytes m)) true, env)) (hd : rs[j]? = some (.bytes d)) : Reports k m d .pythonCalculate

/-- Some build on some host gives `d` as the HMAC of the bytes `m` with this key. -/
inductive ReportsHmac (k : Kind) (key m d : List Byte) : HmacInterface → Prop
  | calculate (hb : Nat) (h1 : 16 ≤ hb) (h2 : hb ≤ 64) (u : Bool) (env : Env k.width) (kh : List Byte) (s s' : St k.width) (l' : Loc) (a ks i size o n : Nat) (hj : Kind.Junk k env.scr) (hkh : kh.length = k.hashSize)
      (hkey : HostArea hb s.caller (some a) ks) (hbuf : HostArea hb s.caller (some i) size) (hh : HostArea hb s.caller (some o) n)
      (e : hostCalculateHmac hb (algOf k) u env kh (some a) ks (some i) size (some o) n s = .ok (1, l', s')) (hK : slice s.caller a ks = key) (hm : slice s.caller i size = m) (hd : slice s'.caller o k.hashSize = d) : ReportsHmac k key m d .calculate
  | calculateWith (hb : Nat) (h1 : 16 ≤ hb) (h2 : hb ≤ 64) (B : Backend) (L : Library) (hL : ∃ Rep, Contract L k Rep) (hT : Tame L k.hashSize) (env : OEnv) (kh : List Byte) (hkh : kh.length = k.hashSize) (s s' : OSt L.State)
      (a ks i size o n : Nat) (hkey : AreaOk s.caller (some a) ks) (ha : AreaOk s.caller (some i) size) (hh : AreaOk s.caller (some o) n)
      (e : hostOCalculateHmac hb B L k.hashSize k.blockSize env kh (some a) ks (some i) size (some o) n s = .ok (1, s')) (hK : slice s.caller a ks = key) (hm : slice s.caller i size = m) (hd : slice s'.caller o k.hashSize = d) : ReportsHmac k key m d .calculateWith
  | python (hb : Nat) (h1 : 16 ≤ hb) (h2 : hb ≤ 64) (ch : Kind → Choice) (L : Kind → Library) (hL : Correct ch L) (kinds : Nat → Kind) (u : Kind → Bool) (al : Nat → Bool) (prog : List (PyOp × PyEnv))
      (st st' : PyState (MixedMem L)) (hs : PyBuildStart st) (he : ∀ x ∈ prog, x.2.Ok ∧ x.1.AtMost (sizeLimit hb)) (rs : List PyResult) (e : PyBuilds.program (.mixedHost hb ch L u al) kinds prog st = .ok (rs, st')) (j : Nat) (env : PyEnv)
      (hj : prog[j]? = some (.calculateHmac k (some (.bytes key, .bytes m)) true, env)) (hd : rs[j]? = some (.bytes d)) : ReportsHmac k key m d .python

theorem slice_overwrite {mem b : List Byte} {o n : Nat} (hb : b.length = n) (h : o ≤ mem.length) : slice (overwrite mem o b) o n = b := by
  rw [slice, overwrite, List.drop_left' (by simp [h]), List.take_left' hb]

/-- `calculate` succeeds only if its sizes are at most the limit of the host. -/
theorem hostCalculate_sizes {hb : Nat} (h1 : 16 ≤ hb) (h2 : hb ≤ 64) {k : Kind} {u : Bool} {env : Env k.width} {s s' : St k.width} {i size o n : Nat} (hj : Kind.Junk k env.scr)
    (hbuf : HostArea hb s.caller (some i) size) (hh : HostArea hb s.caller (some o) n) (e : hostCalculate hb (algOf k) u env (some i) size (some o) n s = .ok (1, s')) : size ≤ sizeLimit hb ∧ n ≤ sizeLimit hb := by
  obtain ⟨enc, L⟩ := lawful k
  have e0 := hostCalculate_eq h1 h2 L u env (scrOk_of_junk hj) (some i) size (some o) n s (hostArea_clip h1 h2 hbuf)
  obtain ⟨r, t, e', -, hiff, -⟩ := C18_calculate_result k u env s (some i) (clip hb size) (some o) (clip hb n) hj (hostArea_clip h1 h2 hbuf) (hostArea_clip h1 h2 hh)
  rw [← e0, e] at e'
  cases e'
  obtain ⟨⟨-, g1, -, -, g2⟩, -⟩ := hiff.mp rfl
  exact ⟨(clip_maxSize h1 h2).mp g1, (clip_maxSize h1 h2).mp g2⟩

/-- So does `calculate_hmac`. -/
theorem hostCalculateHmac_sizes {hb : Nat} (h1 : 16 ≤ hb) (h2 : hb ≤ 64) {k : Kind} {u : Bool} {env : Env k.width} {kh : List Byte} {s s' : St k.width} {l' : Loc} {a ks i size o n : Nat} (hj : Kind.Junk k env.scr)
    (hkh : kh.length = k.hashSize) (hkey : HostArea hb s.caller (some a) ks) (hbuf : HostArea hb s.caller (some i) size) (hh : HostArea hb s.caller (some o) n)
    (e : hostCalculateHmac hb (algOf k) u env kh (some a) ks (some i) size (some o) n s = .ok (1, l', s')) : ks ≤ sizeLimit hb ∧ size ≤ sizeLimit hb ∧ n ≤ sizeLimit hb := by
  obtain ⟨enc, L⟩ := lawful k
  have e0 := hostCalculateHmac_eq h1 h2 L u env (scrOk_of_junk hj) kh (by rw [hkh, algOf_hashSize]) (some a) ks (some i) size (some o) n s
    (hostArea_clip h1 h2 hkey) (hostArea_clip h1 h2 hbuf) (hostArea_clip h1 h2 hh)
  obtain ⟨r, l, t, e', -, hiff⟩ := C20_hmac_result k u env kh s (some a) (clip hb ks) (some i) (clip hb size) (some o) (clip hb n)
    ⟨hostArea_clip h1 h2 hkey, hostArea_clip h1 h2 hbuf, hostArea_clip h1 h2 hh, hj, hkh⟩
  rw [← e0, e] at e'
  cases e'
  obtain ⟨⟨-, g0, -, g1, -, -, g2⟩, -⟩ := hiff.mp rfl
  exact ⟨(clip_maxSize h1 h2).mp g0, (clip_maxSize h1 h2).mp g1, (clip_maxSize h1 h2).mp g2⟩

/-- C95. Every interface gives the standard digest, where it gives one. -/
theorem C95_standard (f : Interface) (k : Kind) (m d : List Byte) (h : Reports k m d f) (hlen : m.length < 2 ^ 61) : d = k.std.digest m := by
  cases h with
  | hmacsum E source text hp hf hd =>
    have := hd.symm.trans (hp.digest hf hlen)
    exact Option.some.inj ((unhex_hex d).symm.trans ((congrArg unhex this).trans (unhex_hex _)))
  | context hb h1 h2 ch L hL T hT kinds calls hv mem mem' hm rs slots e j i o out size r hj hr hc hk ha ho hd =>
    subst hk
    obtain ⟨rs', s', m', e', -, h⟩ := C86_no_wrong_digest h1 h2 hL T hT kinds calls hv mem hm
    rw [e] at e'
    cases e'
    have := h j i o size r m hj hr hc ha hlen
    rw [ho] at this
    cases this
    rw [← hd, List.take_left' (std_digest_length _ _)]
  | calculate hb h1 h2 u env s s' i size o n hj hbuf hh e hm hd =>
    have hl : k.LengthOk m.length := lengthOk_of_lt k hlen
    by_cases hs : size ≤ sizeLimit hb
    · have hsl : (slice s.caller i size).length = size := slice_length (hbuf i rfl hs)
      rw [← hm, hsl] at hl
      obtain ⟨r, t, e', -, hiff, hres, -⟩ := C67_calculate hb h1 h2 k u env s (some i) size (some o) n hj hbuf hh hl
      rw [e] at e'
      cases e'
      obtain ⟨⟨-, -, -, -, g⟩, -⟩ := hiff.mp rfl
      have ho := hh o rfl g
      rw [← hd, hres rfl i o rfl rfl, hm, slice_overwrite (std_digest_length _ _) (by omega)]
    · exact absurd (hostCalculate_sizes h1 h2 hj hbuf hh e).1 hs
  | calculateWith hb h1 h2 B L hL hT env s s' i size o n ha hh e hm hd =>
    obtain ⟨Rep, hL⟩ := hL
    obtain ⟨r, t, e', -, himp, -⟩ := C85_calculate_result h1 h2 B k L hT env (some i) size (some o) n s ha hh
    rw [e] at e'
    cases e'
    obtain ⟨⟨-, g2, -, g4, g5⟩, -⟩ := himp rfl
    have u1 := (hostMaxUpdate_le h1 h2 B).2
    have u2 := (hostMaxOutput_le h1 h2 B).2
    have u3 := maxUpdate_lt B
    have u4 := maxOutput_lt B
    rw [← updateLimit_eq] at g2
    rw [← outputLimit_eq] at g5
    have l1 := ha i rfl (by omega)
    have l2 := hh o rfl (by omega)
    have hsl : (slice s.caller i size).length = size := slice_length l1
    rw [← hd, C85_calculate_digest h1 h2 B k L Rep hL hT env i size o n s s' ha hh (by rw [← hsl, hm]; exact hlen) e, hm, slice_overwrite (std_digest_length _ _) (by omega)]
  | python hb h1 h2 ch L hL kinds u al prog st st' hs he rs e j i env hj hk hm hd =>
    subst hk
    exact (C86_python_digest h1 h2 hL kinds u al prog st hs he rs st' e j i env hj m hm hlen).1 d hd
  | pythonCalculate hb h1 h2 ch L hL kinds u al prog st st' hs he rs e j env hj hd =>
    rcases (C86_python_calculate h1 h2 hL kinds u al prog st hs he rs st' e j k env).1 m hj hlen with h | ⟨h, -⟩
    · rw [hd] at h
      cases h
      rfl
    · rw [hd] at h
      cases h

/-- C95. So any two interfaces, in any two builds on any two hosts, give the same digest for the same bytes. -/
theorem C95_agree (f f' : Interface) (k : Kind) (m d d' : List Byte) (h : Reports k m d f) (h' : Reports k m d' f') (hlen : m.length < 2 ^ 61) : d = d' := by
  rw [C95_standard f k m d h hlen, C95_standard f' k m d' h' hlen]

/-- C95. If two interfaces give the same bytes as digests, then these are digests of the same hash function, and of the same bytes unless the computations meet. -/
theorem C95_equal (f f' : Interface) (k k' : Kind) (a b d : List Byte) (h : Reports k a d f) (h' : Reports k' b d f') (la : a.length < 2 ^ 61) (lb : b.length < 2 ^ 61) : k = k' ∧ (a = b ∨ ∃ i j, k.Meets a b i j) := by
  have hd := (C95_standard f k a d h la).symm.trans (C95_standard f' k' b d h' lb)
  have hk : k = k' := by
    have := congrArg List.length hd
    rw [std_digest_length, std_digest_length] at this
    revert this
    cases k <;> cases k' <;> decide
  subst hk
  refine ⟨rfl, ?_⟩
  by_cases hab : a = b
  · exact .inl hab
  · exact .inr (digest_meets k a b la lb hab hd)

/-- C95. Every interface gives the HMAC of RFC 2104, where it gives one. -/
theorem C95_hmac_standard (f : HmacInterface) (k : Kind) (key m d : List Byte) (h : ReportsHmac k key m d f) (hK : key.length < 2 ^ 61) (hlen : m.length < 2 ^ 61 - 128) : d = hmac k.blockSize k.std.digest key m := by
  have hblk : k.blockSize ≤ 128 := by cases k <;> decide
  have hl : (hmac k.blockSize k.std.digest key m).length = k.hashSize := std_digest_length _ _
  cases h with
  | calculate hb h1 h2 u env kh s s' l' a ks i size o n hj hkh hkey hbuf hh e hk hm hd =>
    obtain ⟨g0, g1, g2⟩ := hostCalculateHmac_sizes h1 h2 hj hkh hkey hbuf hh e
    have l0 : (slice s.caller a ks).length = ks := slice_length (hkey a rfl g0)
    have l1 : (slice s.caller i size).length = size := slice_length (hbuf i rfl g1)
    have l2 := hh o rfl g2
    rw [hk] at l0
    rw [hm] at l1
    obtain ⟨r, l, t, e', -, -, hres, -⟩ := C67_hmac hb h1 h2 k u env kh s (some a) ks (some i) size (some o) n hj hkh hkey hbuf hh (fun _ => by omega)
    rw [e] at e'
    cases e'
    rw [← hd, hres rfl a i o rfl rfl rfl, hk, hm, slice_overwrite hl (by omega)]
  | calculateWith hb h1 h2 B L hL hT env kh hkh s s' a ks i size o n hkey ha hh e hk hm hd =>
    obtain ⟨Rep, hL⟩ := hL
    obtain ⟨r, t, fl, e', -, himp, -⟩ := C85_hmac_result h1 h2 B k L hT env kh hkh (some a) ks (some i) size (some o) n s hkey ha hh
    rw [e] at e'
    cases e'
    obtain ⟨-, g0, -, -, g2, -, g4, g5⟩ := (himp rfl).1
    have u1 := (hostMaxUpdate_le h1 h2 B).2
    have u2 := (hostMaxOutput_le h1 h2 B).2
    have u3 := maxUpdate_lt B
    have u4 := maxOutput_lt B
    have u5 := (sizeLimit_le h1 h2).2
    rw [← updateLimit_eq] at g2
    rw [← outputLimit_eq] at g5
    have l0 : (slice s.caller a ks).length = ks := slice_length (hkey a rfl (by unfold maxSize at u5; omega))
    have l1 : (slice s.caller i size).length = size := slice_length (ha i rfl (by omega))
    have l2 := hh o rfl (by omega)
    rw [hk] at l0
    rw [hm] at l1
    rw [← hd, C85_hmac_value h1 h2 B k L Rep hL hT env kh hkh a ks i size o n s s' hkey ha hh (by omega) (by omega) e, hk, hm, slice_overwrite hl (by omega)]
  | python hb h1 h2 ch L hL kinds u al prog st st' hs he rs e j env hj hd =>
    rcases (C86_python_calculate h1 h2 hL kinds u al prog st hs he rs st' e j k env).2 key m hj hK (by omega) with h | ⟨h, -⟩
    · rw [hd] at h
      cases h
      rfl
    · rw [hd] at h
      cases h

/-- C95. So any two interfaces, in any two builds on any two hosts, give the same HMAC. -/
theorem C95_hmac_agree (f f' : HmacInterface) (k : Kind) (key m d d' : List Byte) (h : ReportsHmac k key m d f) (h' : ReportsHmac k key m d' f') (hK : key.length < 2 ^ 61) (hlen : m.length < 2 ^ 61 - 128) : d = d' := by
  rw [C95_hmac_standard f k key m d h hK hlen, C95_hmac_standard f' k key m d' h' hK hlen]

/-! ### Every interface does give digests and HMACs -/

/-- "-d sha1,sha224,sha256,sha512". -/
def groups95 : List OptGroup := [⟨[], some (100, codes "sha1,sha224,sha256,sha512", false)⟩]

theorem line95 : SourceLine groups95 (codes "file") := by
  refine ⟨fun g hg => ?_, by decide, by decide, by decide⟩
  simp only [groups95, List.mem_cons, List.not_mem_nil, or_false] at hg
  subst hg
  exact ⟨by simp, by decide, fun o v a h => by cases h; decide⟩

theorem selected95 (k : Kind) : Selected (lastArgument 100 (optionsOf groups95)) k := by
  by_cases hk : k = .md5
  · exact .inl hk
  · refine .inr ⟨codes "sha1,sha224,sha256,sha512", by decide, ?_⟩
    have h : k.Named (codes "sha1,sha224,sha256,sha512") ↔ ∃ name ∈ k.names, name ∈ splitAt 44 (codes "sha1,sha224,sha256,sha512") := by simp [Kind.Named, mem_splitAt]
    rw [h]
    revert hk
    cases k <;> decide

theorem given_hmacsum (k : Kind) (m : List Byte) (hlen : m.length < 2 ^ 31) : Reports k m (k.std.digest m) .hmacsum := by
  obtain ⟨lines, W', e, sel, hsel, rfl⟩ := C85_completes (hb := 32) (envOf m) (envOf_ok m) (exact_right (fun _ => .crypto .evpAllocated)) (by decide) (by decide) (fun k _ => exact_reliable k) (codes "hmacsum") groups95 (codes "file") [] line95 (mixed0 _)
    ⟨m, some m.length, fun _ => some 1000⟩ rfl rfl (fun _ => ⟨1000, rfl, by decide⟩) (fun _ => rfl) ⟨rfl, rfl, rfl, rfl⟩ rfl
    (fun s hs => by rw [show lastArgument 112 (optionsOf groups95) = none by decide] at hs; cases hs) (.inl fun _ h => by cases h) (by show m.length < 2 ^ 61; omega)
  refine .hmacsum (envOf m) (codes "file") (hex (k.std.digest m)) (.run 32 _ _ (envOf_ok m) (exact_right (fun _ => .crypto .evpAllocated)) (by decide) (by decide) (codes "hmacsum") groups95 [] line95 (mixed0 _) W' _ e ?_) (envOf_bytes _ _) rfl
  refine List.mem_cons_of_mem _ (List.mem_map.mpr ⟨k, List.mem_filter.mpr ⟨by cases k <;> decide, ?_⟩, rfl⟩)
  exact (hsel k).mpr (selected95 k)

theorem given_calculate (k : Kind) (m : List Byte) (hlen : m.length < 2 ^ 31) : Reports k m (k.std.digest m) .calculate := by
  have hs : k.hashSize ≤ 64 := by cases k <;> decide
  have lim : sizeLimit 32 = 2 ^ 31 - 1 := rfl
  have a1 : HostArea 32 (m ++ List.replicate k.hashSize 0) (some 0) m.length := by
    rintro _ ⟨⟩ -
    simp
  have a2 : HostArea 32 (m ++ List.replicate k.hashSize 0) (some m.length) k.hashSize := by
    rintro _ ⟨⟩ -
    simp
  obtain ⟨r, s', e, -, hiff, hres, -⟩ := C67_calculate 32 (by decide) (by decide) k true (env0 k) ⟨m ++ List.replicate k.hashSize 0, 5, [], []⟩ (some 0) m.length (some m.length) k.hashSize (junk0_ok k) a1 a2 (lengthOk_of_lt k (by omega))
  obtain rfl := hiff.mpr ⟨⟨by simp, by omega, by simp, Nat.le_refl _, by omega⟩, rfl⟩
  have sl : slice (m ++ List.replicate k.hashSize 0) 0 m.length = m := by simp [slice]
  refine .calculate 32 (by decide) (by decide) true (env0 k) ⟨m ++ List.replicate k.hashSize 0, 5, [], []⟩ s' 0 m.length m.length k.hashSize (junk0_ok k) a1 a2 e sl ?_
  rw [hres rfl 0 m.length rfl rfl]
  show slice (overwrite (m ++ List.replicate k.hashSize 0) m.length _) _ _ = _
  rw [slice_overwrite (std_digest_length _ _) (by simp)]
  exact congrArg _ sl

theorem given_calculateWith (k : Kind) (m : List Byte) (hlen : m.length < 2 ^ 31) : Reports k m (k.std.digest m) .calculateWith := by
  have hs : k.hashSize ≤ 64 := by cases k <;> decide
  have a1 : AreaOk (m ++ List.replicate k.hashSize 0) (some 0) m.length := by
    rintro _ ⟨⟩ -
    simp
  have a2 : AreaOk (m ++ List.replicate k.hashSize 0) (some m.length) k.hashSize := by
    rintro _ ⟨⟩ -
    simp
  obtain ⟨r, s', e, -, -, hok, -⟩ := C85_calculate_result (hb := 32) (by decide) (by decide) .evpAllocated k (exactLibrary k) (exact_tame k) ⟨fun _ => true, fun _ _ => 1⟩ (some 0) m.length (some m.length) k.hashSize
    ⟨m ++ List.replicate k.hashSize 0, ⟨0, 0, []⟩, [], []⟩ a1 a2
  have u : updateLimit 32 .evpAllocated = 2 ^ 31 - 1 := rfl
  have o : outputLimit 32 .evpAllocated = 2 ^ 32 - 1 := rfl
  obtain rfl := hok ⟨by simp, by omega, by simp, Nat.le_refl _, by omega⟩ rfl (exact_reliable k)
  have sl : slice (m ++ List.replicate k.hashSize 0) 0 m.length = m := by simp [slice]
  refine .calculateWith 32 (by decide) (by decide) .evpAllocated (exactLibrary k) ⟨_, exact_contract k⟩ (exact_tame k) ⟨fun _ => true, fun _ _ => 1⟩ ⟨m ++ List.replicate k.hashSize 0, ⟨0, 0, []⟩, [], []⟩ s' 0 m.length m.length k.hashSize a1 a2 e sl ?_
  rw [C85_calculate_digest (by decide) (by decide) .evpAllocated k (exactLibrary k) _ (exact_contract k) (exact_tame k) _ _ _ _ _ _ s' a1 a2 (by omega) e]
  show slice (overwrite (m ++ List.replicate k.hashSize 0) m.length _) _ _ = _
  rw [slice_overwrite (std_digest_length _ _) (by simp)]
  exact congrArg _ sl

theorem given_context (k : Kind) (m : List Byte) (hlen : m.length < 2 ^ 31) : Reports k m (k.std.digest m) .context := by
  have hs : k.hashSize ≤ 64 := by cases k <;> decide
  let calls : List (Nat × ApiCall) := [(0, .init), (0, .update (some m) m.length), (0, .finalize (some (List.replicate k.hashSize 0)) k.hashSize)]
  have hv : ∀ c ∈ calls, HostCallOk 32 (.crypto .evpAllocated) c.2 := by
    intro c hc
    simp only [calls, List.mem_cons, List.not_mem_nil, or_false] at hc
    rcases hc with rfl | rfl | rfl <;> simp [HostCallOk, BuildValid]
  have u : (Choice.crypto .evpAllocated).limit = 2 ^ 63 - 1 := rfl
  have l : sizeLimit 32 = 2 ^ 31 - 1 := rfl
  obtain ⟨rs, slots, m', e, hh⟩ := C86_digest (hb := 32) (by decide) (by decide) (exact_right fun _ => .crypto .evpAllocated) env1.tool env1_ok.tool.scr (fun _ => rfl) (fun _ => k) calls hv (mixed0 _).mem (mixed0_wf _) 0 (fun _ => exact_reliable _)
    [m] (List.replicate k.hashSize 0) k.hashSize rfl ⟨Nat.le_refl _, by omega, by omega⟩ (fun b hb => by
      rw [List.mem_singleton] at hb
      subst hb
      omega) (by simp; omega)
  have hz : historyOf 0 (calls.zip rs) = (calls.zip rs).map fun x => (x.1.2, x.2) := by
    unfold historyOf
    rw [List.filter_eq_self.mpr]
    intro x hx
    have := (List.of_mem_zip hx).1
    simp only [calls, List.mem_cons, List.not_mem_nil, or_false] at this
    rcases this with h | h | h <;> simp [h]
  obtain ⟨rs', sl', mm', e', hlen', -⟩ := C86_no_wrong_digest (hb := 32) (by decide) (by decide) (exact_right fun _ => .crypto .evpAllocated) env1.tool env1_ok.tool.scr (fun _ => k) calls hv (mixed0 _).mem (mixed0_wf _)
  rw [e] at e'
  cases e'
  have hrs : rs = goodReplies 1 (k.std.digest m ++ (List.replicate k.hashSize 0).drop k.hashSize) := by
    rw [hz, List.map_map, show ((fun x : ApiCall × Reply => x.2) ∘ fun x : (Nat × ApiCall) × Reply => (x.1.2, x.2)) = Prod.snd from rfl, List.map_snd_zip (by omega)] at hh
    simpa using hh
  subst hrs
  refine .context 32 (by decide) (by decide) _ _ (exact_right fun _ => .crypto .evpAllocated) env1.tool env1_ok.tool.scr (fun _ => k) calls hv (mixed0 _).mem m' (mixed0_wf _) _ slots e 2 0 _ _ _ _ rfl rfl rfl rfl ?_ rfl
    (List.take_left' (std_digest_length _ _))
  simp [calls, goodReplies, historyOf, accepted]

theorem given_python (k : Kind) (m : List Byte) (hlen : m.length < 2 ^ 31) : Reports k m (k.std.digest m) .python ∧ Reports k m (k.std.digest m) .pythonCalculate := by
  let prog : List (PyOp × PyEnv) := [(.create 0 true, pyEnv0), (.update 0 (some (.bytes m)), pyEnv0), (.finalize 0 true, pyEnv0), (.calculate k (some (.bytes m)) true, pyEnv0)]
  have l : sizeLimit 32 = 2 ^ 31 - 1 := rfl
  have he : ∀ x ∈ prog, x.2.Ok ∧ x.1.AtMost (sizeLimit 32) := by
    intro x hx
    simp only [prog, List.mem_cons, List.not_mem_nil, or_false] at hx
    rcases hx with rfl | rfl | rfl | rfl <;> refine ⟨pyEnv0_ok, ?_⟩ <;> first | trivial | (show m.length ≤ _; omega)
  have hC := exact_right fun _ => .crypto .evpAllocated
  obtain ⟨fails, st', hlf, e, hf⟩ := C76_same hC (fun k _ => exact_reliable k) (fun _ => k) (fun _ => true) (fun _ => true) prog (pyBuild0 _) (pyBuild0_start _) (fun x hx => (he x hx).1) (by simp [prog, pyOnce]) (by
    have u : (Choice.crypto .evpAllocated).limit = 2 ^ 63 - 1 := rfl
    intro x hx
    simp only [prog, List.mem_cons, List.not_mem_nil, or_false] at hx
    rcases hx with rfl | rfl | rfl | rfl <;> simp only [PyOp.Fits] <;> omega) (by
    simp [prog, PyOp.fed]
    omega)
  have hfs : fails = List.replicate 4 false := List.eq_replicate_iff.2 ⟨hlf, hf (fun _ => rfl)⟩
  rw [hfs] at e
  rw [← C86_python (hb := 32) (by decide) (by decide) hC _ _ _ prog _ (pyBuild0_start _) he] at e
  have hmax : m.length ≤ maxSize := by unfold maxSize; omega
  have hstd : k.len64.digest m = k.std.digest m := len64_digest k m (lengthOk_of_lt k (by omega))
  have hrun : (pyRun (fun _ => k) ((prog.map (·.1)).zip (List.replicate 4 false)) (fun _ => none)).1 = [.none, .none, .bytes (k.std.digest m), .bytes (k.std.digest m)] := by
    rw [← hstd]
    simp [prog, pyRun, pyStep, pyBytes, hmax, IterHash.digest]
  rw [hrun] at e
  constructor
  · exact .python 32 (by decide) (by decide) _ _ hC (fun _ => k) (fun _ => true) (fun _ => true) prog _ st' (pyBuild0_start _) he _ e 2 0 pyEnv0 rfl rfl (by simp [prog, pyMessage, pyTrace, pyMessageNext]) rfl
  · exact .pythonCalculate 32 (by decide) (by decide) _ _ hC (fun _ => k) (fun _ => true) (fun _ => true) prog _ st' (pyBuild0_start _) he _ e 3 pyEnv0 rfl rfl

/-- C95. Every interface does give the digest of any bytes up to the largest size of a 32-bit host, for every hash function: so the agreement is not an empty one. -/
theorem C95_given (f : Interface) (k : Kind) (m : List Byte) (hlen : m.length < 2 ^ 31) : Reports k m (k.std.digest m) f := by
  cases f
  · exact given_hmacsum k m hlen
  · exact given_context k m hlen
  · exact given_calculate k m hlen
  · exact given_calculateWith k m hlen
  · exact (given_python k m hlen).1
  · exact (given_python k m hlen).2

/-- The memory of a caller: key, message, room for the result. -/
def memory95 (k : Kind) (key m : List Byte) : List Byte := key ++ (m ++ List.replicate k.hashSize 0)

theorem memory95_length (k : Kind) (key m : List Byte) : (memory95 k key m).length = key.length + (m.length + k.hashSize) := by simp [memory95]

theorem memory95_key (k : Kind) (key m : List Byte) : slice (memory95 k key m) 0 key.length = key := by simp [slice, memory95]

theorem memory95_data (k : Kind) (key m : List Byte) : slice (memory95 k key m) key.length m.length = m := by simp [slice, memory95]

theorem given_hmac (k : Kind) (key m : List Byte) (hk : key.length < 2 ^ 31) (hlen : m.length < 2 ^ 31) : ReportsHmac k key m (hmac k.blockSize k.std.digest key m) .calculate := by
  have hs : k.hashSize ≤ 64 := by cases k <;> decide
  have lim : sizeLimit 32 = 2 ^ 31 - 1 := rfl
  have hl : (hmac k.blockSize k.std.digest key m).length = k.hashSize := std_digest_length _ _
  have a0 : HostArea 32 (memory95 k key m) (some 0) key.length := by
    rintro _ ⟨⟩ -
    rw [memory95_length]
    omega
  have a1 : HostArea 32 (memory95 k key m) (some key.length) m.length := by
    rintro _ ⟨⟩ -
    rw [memory95_length]
    omega
  have a2 : HostArea 32 (memory95 k key m) (some (key.length + m.length)) k.hashSize := by
    rintro _ ⟨⟩ -
    rw [memory95_length]
    omega
  obtain ⟨r, l', s', e, -, hiff, hres, -⟩ := C67_hmac 32 (by decide) (by decide) k true (env0 k) (List.replicate k.hashSize 1) ⟨memory95 k key m, 5, [], []⟩ (some 0) key.length (some key.length) m.length (some (key.length + m.length)) k.hashSize
    (junk0_ok k) (by simp) a0 a1 a2 (fun _ => by omega)
  obtain rfl := hiff.mpr ⟨⟨by simp, by omega, by simp, by omega, by simp, Nat.le_refl _, by omega⟩, fun _ _ => rfl⟩
  refine .calculate 32 (by decide) (by decide) true (env0 k) (List.replicate k.hashSize 1) ⟨memory95 k key m, 5, [], []⟩ s' l' 0 key.length key.length m.length (key.length + m.length) k.hashSize (junk0_ok k) (by simp) a0 a1 a2 e
    (memory95_key k key m) (memory95_data k key m) ?_
  rw [hres rfl _ _ _ rfl rfl rfl]
  show slice (overwrite (memory95 k key m) _ (hmac k.blockSize k.std.digest (slice (memory95 k key m) 0 key.length) (slice (memory95 k key m) key.length m.length))) _ _ = _
  rw [memory95_key, memory95_data, slice_overwrite hl (by rw [memory95_length]; omega)]

theorem given_hmacWith (k : Kind) (key m : List Byte) (hk : key.length < 2 ^ 31) (hlen : m.length < 2 ^ 31) : ReportsHmac k key m (hmac k.blockSize k.std.digest key m) .calculateWith := by
  have hs : k.hashSize ≤ 64 := by cases k <;> decide
  have hl : (hmac k.blockSize k.std.digest key m).length = k.hashSize := std_digest_length _ _
  have a0 : AreaOk (memory95 k key m) (some 0) key.length := by
    rintro _ ⟨⟩ -
    rw [memory95_length]
    omega
  have a1 : AreaOk (memory95 k key m) (some key.length) m.length := by
    rintro _ ⟨⟩ -
    rw [memory95_length]
    omega
  have a2 : AreaOk (memory95 k key m) (some (key.length + m.length)) k.hashSize := by
    rintro _ ⟨⟩ -
    rw [memory95_length]
    omega
  have u : updateLimit 32 .evpAllocated = 2 ^ 31 - 1 := rfl
  have o : outputLimit 32 .evpAllocated = 2 ^ 32 - 1 := rfl
  have lim : sizeLimit 32 = 2 ^ 31 - 1 := rfl
  obtain ⟨r, s', fl, e, -, -, hok, -⟩ := C85_hmac_result (hb := 32) (by decide) (by decide) .evpAllocated k (exactLibrary k) (exact_tame k) ⟨fun _ => true, fun _ _ => 1⟩ (List.replicate k.hashSize 1) (by simp) (some 0) key.length
    (some key.length) m.length (some (key.length + m.length)) k.hashSize ⟨memory95 k key m, ⟨0, 0, []⟩, [], []⟩ a0 a1 a2
  obtain rfl := hok ⟨by simp, by omega, fun _ => by omega, by simp, by omega, by simp, Nat.le_refl _, by omega⟩ (fun _ _ => rfl) (exact_reliable k)
  refine .calculateWith 32 (by decide) (by decide) .evpAllocated (exactLibrary k) ⟨_, exact_contract k⟩ (exact_tame k) ⟨fun _ => true, fun _ _ => 1⟩ (List.replicate k.hashSize 1) (by simp) ⟨memory95 k key m, ⟨0, 0, []⟩, [], []⟩ s' 0 key.length
    key.length m.length (key.length + m.length) k.hashSize a0 a1 a2 e (memory95_key k key m) (memory95_data k key m) ?_
  rw [C85_hmac_value (by decide) (by decide) .evpAllocated k (exactLibrary k) _ (exact_contract k) (exact_tame k) _ _ (by simp) _ _ _ _ _ _ _ s' a0 a1 a2 (by omega) (by omega) e]
  show slice (overwrite (memory95 k key m) _ (hmac k.blockSize k.std.digest (slice (memory95 k key m) 0 key.length) (slice (memory95 k key m) key.length m.length))) _ _ = _
  rw [memory95_key, memory95_data, slice_overwrite hl (by rw [memory95_length]; omega)]

theorem given_hmac_python (k : Kind) (key m : List Byte) (hk : key.length < 2 ^ 31) (hlen : m.length < 2 ^ 31) : ReportsHmac k key m (hmac k.blockSize k.std.digest key m) .python := by
  have hblk : k.blockSize ≤ 128 := by cases k <;> decide
  let prog : List (PyOp × PyEnv) := [(.calculateHmac k (some (.bytes key, .bytes m)) true, pyEnv0)]
  have l : sizeLimit 32 = 2 ^ 31 - 1 := rfl
  have he : ∀ x ∈ prog, x.2.Ok ∧ x.1.AtMost (sizeLimit 32) := by
    intro x hx
    simp only [prog, List.mem_cons, List.not_mem_nil, or_false] at hx
    subst hx
    refine ⟨pyEnv0_ok, ?_, ?_⟩
    · show key.length ≤ _
      omega
    · show m.length ≤ _
      omega
  have hC := exact_right fun _ => .crypto .evpAllocated
  have u : (Choice.crypto .evpAllocated).limit = 2 ^ 63 - 1 := rfl
  obtain ⟨rs, st', o, e, -⟩ := C86_python_safe (hb := 32) (by decide) (by decide) hC (fun _ => k) (fun _ => true) (fun _ => true) prog (pyBuild0 _) (pyBuild0_start _) he
  refine .python 32 (by decide) (by decide) _ _ hC (fun _ => k) (fun _ => true) (fun _ => true) prog _ st' (pyBuild0_start _) he rs e 0 pyEnv0 rfl ?_
  rcases (C86_python_calculate (by decide) (by decide) hC _ _ _ prog _ (pyBuild0_start _) he rs st' e 0 k pyEnv0).2 key m rfl (by omega) (by omega) with h | ⟨-, ⟨n, hn⟩ | hn | hn | hn⟩
  · exact h
  · cases hn
  · exact absurd (fun _ => exact_reliable k) hn
  · omega
  · omega

/-- C95. Every interface does give the HMAC for any key and any bytes up to the largest size of a 32-bit host, for every hash function. -/
theorem C95_hmac_given (f : HmacInterface) (k : Kind) (key m : List Byte) (hk : key.length < 2 ^ 31) (hlen : m.length < 2 ^ 31) : ReportsHmac k key m (hmac k.blockSize k.std.digest key m) f := by
  cases f
  · exact given_hmac k key m hk hlen
  · exact given_hmacWith k key m hk hlen
  · exact given_hmac_python k key m hk hlen

/-- hmacsum and a Python object give the same SHA-256. -/
example (m : List Byte) (hlen : m.length < 2 ^ 31) := C95_agree .hmacsum .python .sha256 m _ _ (C95_given .hmacsum .sha256 m hlen) (C95_given .python .sha256 m hlen) (by omega)

example (f : Interface) (k : Kind) (m : List Byte) (hlen : m.length < 2 ^ 31) := C95_standard f k m _ (C95_given f k m hlen) (by omega)

/-- What hmacsum prints for one of the files of Wang et al. is what the library stores for the other: the computations meet. -/
example : ∃ i j, Kind.Meets .md5 wang₁ wang₂ i j := by
  have l₁ : wang₁.length < 2 ^ 31 := by decide +kernel
  have l₂ : wang₂.length < 2 ^ 31 := by decide +kernel
  have h₂ := C95_given .calculate .md5 wang₂ l₂
  rw [show Kind.md5.std.digest wang₂ = Kind.md5.std.digest wang₁ from wang_digest₂.trans wang_digest₁.symm] at h₂
  exact (C95_equal .hmacsum .calculate .md5 .md5 wang₁ wang₂ _ (C95_given .hmacsum .md5 wang₁ l₁) h₂ (by omega) (by omega)).2.resolve_left wang_ne

example (key m : List Byte) (hk : key.length < 2 ^ 31) (hlen : m.length < 2 ^ 31) :=
  C95_hmac_agree .calculate .python .sha1 key m _ _ (C95_hmac_given .calculate .sha1 key m hk hlen) (C95_hmac_given .python .sha1 key m hk hlen) (by omega) (by omega)

example (f : HmacInterface) (k : Kind) (key m : List Byte) (hk : key.length < 2 ^ 31) (hlen : m.length < 2 ^ 31) := C95_hmac_standard f k key m _ (C95_hmac_given f k key m hk hlen) (by omega) (by omega)

example : ([1, 2, 3] : List Byte).length < 2 ^ 31 := by decide

end Props

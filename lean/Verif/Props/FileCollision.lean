import Verif.Props.HostBackend
import Verif.Props.Extension
import Verif.Proofs.CollisionSite
/-! C93: comparing the digests that hmacsum prints compares the files, in every build, on hosts of every width, with signals at any moment. Also the sharper form of C32, which says where the
computations of two equal digests meet. (That the compression function has collisions at all follows from counting; the claims are about the ones that the two computations run into.) -/

namespace Props

open Model Spec Configure

/-- The bytes of the file that is named `source` when hmacsum runs: as many as its size says. -/
def FileBytes (E : Environment) (source : List Nat) (bytes : List Byte) : Prop :=
  ∃ inp size, E.files source = some inp ∧ inp.size = some size ∧ size ≤ inp.content.length ∧ bytes = inp.content.take size

/-- Some build of hmacsum on some host (17 to 64 bits), with the project's code or a crypto library that may fail for each hash function, started with some options and `source`, prints `text` as the digest `k`;
it may succeed or fail, and be interrupted by signals. -/
inductive Prints (E : Environment) (source : List Nat) (k : Kind) (text : List Nat) : Prop
  | run (hb : Nat) (ch : Kind → Choice) (L : Kind → Library) (hE : EnvOk E) (hL : Correct ch L) (h1 : 17 ≤ hb) (h2 : hb ≤ 64) (program : List Nat) (groups : List OptGroup) (rest : List (List Nat))
      (hl : SourceLine groups source) (W W' : WorldOf (MixedMem L)) (x : Exit) (e : Builds.hmacsum E (.mixedHost hb ch L E.tool) (commandLine program groups (source :: rest)) W = .ok (x, W'))
      (hk : Line.digest k text ∈ x.out)
  | interrupted (hb : Nat) (ch : Kind → Choice) (L : Kind → Library) (Y : SystemCalls) (S : Signals) (hE : StartOk E Y) (hL : Correct ch L) (h1 : 17 ≤ hb) (h2 : hb ≤ 64) (program : List Nat) (groups : List OptGroup)
      (rest : List (List Nat)) (hl : SourceLine groups source) (W : WorldOf (MixedMem L)) (f : Builds.Fate (MixedMem L))
      (e : Builds.sHmacsum E (.mixedHost hb ch L E.tool) Y S (commandLine program groups (source :: rest)) W = .ok f) (hk : Line.digest k text ∈ printedOf f)

/-- What is printed is the standard digest of the bytes of the file. -/
theorem Prints.digest {E : Environment} {source : List Nat} {k : Kind} {text : List Nat} (h : Prints E source k text) {bytes : List Byte} (hf : FileBytes E source bytes) (hlen : bytes.length < 2 ^ 61) :
    text = hex (k.std.digest bytes) := by
  obtain ⟨inp, size, h1, h2, h3, rfl⟩ := hf
  rw [List.length_take, Nat.min_eq_left h3] at hlen
  have key : ∃ inp size, E.files source = some inp ∧ inp.size = some size ∧ (size < 2 ^ 61 → text = hex (k.std.digest (inp.content.take size))) := by
    cases h with
    | run hb ch L hE hL g1 g2 program groups rest hl W W' x e hk =>
      obtain ⟨i, s, q1, q2, -, q⟩ := C85_no_wrong_digest E hE hL g1 g2 program groups source rest hl W x W' e k text hk
      exact ⟨i, s, q1, q2, fun h => (q h).2⟩
    | interrupted hb ch L Y S hE hL g1 g2 program groups rest hl W f e hk =>
      obtain ⟨i, s, q1, q2, -, q⟩ := C85_interrupted_no_wrong_digest E Y S hE hL g1 g2 program groups source rest hl W f e k text hk
      exact ⟨i, s, q1, q2, fun h => (q h).2⟩
  obtain ⟨i, s, q1, q2, q⟩ := key
  rw [h1] at q1
  cases q1
  rw [h2] at q2
  cases q2
  exact q hlen

/-- C93. If two runs of hmacsum (in any builds, on any hosts, with any options, interrupted or not) print the same characters as digests of two files, then the digests are of the same hash function, and the
files are equal byte for byte or the computations of their digests meet: they differ before some block and agree after it. -/
theorem C93_equal_digests (E E' : Environment) (source source' : List Nat) (k k' : Kind) (text : List Nat) (h : Prints E source k text) (h' : Prints E' source' k' text) (a b : List Byte)
    (ha : FileBytes E source a) (hb : FileBytes E' source' b) (la : a.length < 2 ^ 61) (lb : b.length < 2 ^ 61) : k = k' ∧ (a = b ∨ ∃ i j, k.Meets a b i j) := by
  have e := h.digest ha la
  have e' := h'.digest hb lb
  have hd : k.std.digest a = k'.std.digest b := by
    have := (unhex_hex (k.std.digest a)).symm.trans ((congrArg unhex (e.symm.trans e')).trans (unhex_hex _))
    exact Option.some.inj this
  have hk : k = k' := by
    have := congrArg List.length hd
    rw [std_digest_length, std_digest_length] at this
    revert this
    cases k <;> cases k' <;> decide
  subst hk
  refine ⟨rfl, ?_⟩
  by_cases hab : a = b
  · exact .inl hab
  · exact .inr (digest_meets k a b la lb hab hd)

/-- C93. Copies of a file always get the same digest. -/
theorem C93_copies (E E' : Environment) (source source' : List Nat) (k : Kind) (text text' : List Nat) (h : Prints E source k text) (h' : Prints E' source' k text') (a : List Byte)
    (ha : FileBytes E source a) (hb : FileBytes E' source' a) (la : a.length < 2 ^ 61) : text = text' := by
  rw [h.digest ha la, h'.digest hb la]

/-- C93. Where two computations meet, the digests are equal if the rest of the messages is: from there on the blocks decide. So the exception in C93_equal_digests is no more than it has to be. -/
theorem C93_meets (k : Kind) (a b : List Byte) (i j : Nat) (h : k.Meets a b i j) (hrest : (k.compressed a).drop (i + 1) = (k.compressed b).drop (j + 1)) : k.std.digest a = k.std.digest b := by
  have hbs : k.std.blockBytes = k.blockSize := by cases k <;> rfl
  have split : ∀ (m : List Byte) (n : Nat), n < (k.compressed m).length → k.std.digest m = k.std.output (k.std.chain (k.std.compress (k.valueAt m n) (k.blockAt m n)) ((k.compressed m).drop (n + 1))) := by
    intro m n hn
    have e1 : k.std.digest m = k.std.output (k.std.chain k.std.iv (k.compressed m)) := by simp only [IterHash.digest, IterHash.digestFrom, hbs, Kind.compressed]
    rw [e1]
    congr 1
    conv_lhs => rw [← List.take_append_drop n (k.compressed m), List.drop_eq_getElem_cons hn]
    simp only [IterHash.chain, List.foldl_append, List.foldl_cons, Kind.valueAt, Kind.blockAt]
    congr 2
    rw [List.getD_eq_getElem?_getD, List.getElem?_eq_getElem hn]
    rfl
  rw [split a i h.left, split b j h.right, hrest]
  rcases h.after with e | ⟨hk, l1, l2, e⟩
  · rw [e]
  · rw [l2, List.drop_length]
    simp only [IterHash.chain, List.foldl_nil]
    generalize k.std.compress (k.valueAt a i) (k.blockAt a i) = g₁ at *
    generalize k.std.compress (k.valueAt b j) (k.blockAt b j) = g₂ at *
    clear h l1 l2 hrest split hbs
    subst hk
    show (List.take 7 g₁).flatMap _ = (List.take 7 g₂).flatMap _
    rw [e]

/-- C32. If two clients hashing different messages (below 2^61 bytes) get the same digest, then their computations meet, and at that place the block transform of the code gives the same result for two different pairs
of chaining value and block: both are among the pairs that the two computations go through. -/
theorem C32_collision_located (k : Kind) (u₁ u₂ : Bool) (env₁ env₂ : Env k.width) (s₁ s₂ t₁ t₂ : St k.width)
    (chunks₁ chunks₂ : List (List Byte × Scr k.width)) (last₁ last₂ : Scr k.width) (n₁ n₂ : Nat) (out₁ out₂ o₁ o₂ : List Byte) (p₁ p₂ : Option Nat)
    (h₁ : env₁.allocOk s₁.count = true) (h₂ : env₂.allocOk s₂.count = true)
    (v₁ : ValidStream k chunks₁ last₁ out₁ n₁) (v₂ : ValidStream k chunks₂ last₂ out₂ n₂)
    (l₁ : (message chunks₁).length < 2 ^ 61) (l₂ : (message chunks₂).length < 2 ^ 61) (hne : message chunks₁ ≠ message chunks₂)
    (e₁ : run (algOf k) u₁ env₁ (hashCalls chunks₁ last₁ out₁ n₁) none s₁ = .ok (goodReplies chunks₁.length o₁, p₁, t₁))
    (e₂ : run (algOf k) u₂ env₂ (hashCalls chunks₂ last₂ out₂ n₂) none s₂ = .ok (goodReplies chunks₂.length o₂, p₂, t₂))
    (heq : o₁.take k.hashSize = o₂.take k.hashSize) :
    ∃ i j, k.Meets (message chunks₁) (message chunks₂) i j ∧
      ∀ u scr, Kind.Junk k scr → ∃ r c₁ c₂ scr₁ scr₂,
        transform (algOf k) u scr (some ⟨0, k.valueAt (message chunks₁) i, 0, []⟩) (some (k.blockAt (message chunks₁) i)) k.blockSize = .ok (r, some c₁, scr₁) ∧
        transform (algOf k) u scr (some ⟨0, k.valueAt (message chunks₂) j, 0, []⟩) (some (k.blockAt (message chunks₂) j)) k.blockSize = .ok (r, some c₂, scr₂) ∧
        if k = .sha224 then c₁.hashValues.take 7 = c₂.hashValues.take 7 else c₁.hashValues = c₂.hashValues := by
  obtain ⟨q₁, w₁, d₁⟩ := stream_ok k u₁ env₁ s₁ chunks₁ last₁ out₁ n₁ h₁ v₁
  obtain ⟨q₂, w₂, d₂⟩ := stream_ok k u₂ env₂ s₂ chunks₂ last₂ out₂ n₂ h₂ v₂
  rw [d₁] at e₁
  rw [d₂] at e₂
  simp only [Res.ok.injEq, Prod.mk.injEq, goodReplies, List.append_cancel_left_eq, List.cons.injEq, and_true, Reply.mk.injEq, Option.some.injEq, true_and] at e₁ e₂
  rw [← e₁.1, ← e₂.1, List.take_left' (digest_length k _), List.take_left' (digest_length k _)] at heq
  have std : ∀ m : List Byte, m.length < 2 ^ 61 → k.len64.digest m = k.std.digest m := fun m hm => len64_digest k m (lengthOk_of_lt k hm)
  rw [std _ l₁, std _ l₂] at heq
  obtain ⟨i, j, hm⟩ := digest_meets k _ _ l₁ l₂ hne heq
  refine ⟨i, j, hm, fun u scr hscr => ?_⟩
  obtain ⟨enc, L⟩ := lawful k
  have hB : 0 < k.blockSize := by cases k <;> decide
  have hbs := algOf_blockSize k
  have hmax : k.blockSize ≤ ssizeMax := by cases k <;> decide
  have len : ∀ (m : List Byte) (n : Nat), n < (k.compressed m).length → (k.blockAt m n).length = k.blockSize := by
    intro m n hn
    refine mem_blocks (m := pad k.blockSize k.std.lenBytes k.std.lenField m) ?_
    show (k.compressed m).getD n [] ∈ k.compressed m
    rw [List.getD_eq_getElem?_getD, List.getElem?_eq_getElem hn]
    exact List.getElem_mem hn
  have lb₁ := len _ _ hm.left
  have lb₂ := len _ _ hm.right
  obtain ⟨scr₁, x₁, -⟩ := transform_ok L u scr ⟨0, k.valueAt (message chunks₁) i, 0, []⟩ (k.blockAt (message chunks₁) i) k.blockSize hmax (by omega) (by rw [algOf_nHash]; exact valueAt_length k _ _) (scrOk_of_junk hscr)
  obtain ⟨scr₂, x₂, -⟩ := transform_ok L u scr ⟨0, k.valueAt (message chunks₂) j, 0, []⟩ (k.blockAt (message chunks₂) j) k.blockSize hmax (by omega) (by rw [algOf_nHash]; exact valueAt_length k _ _) (scrOk_of_junk hscr)
  rw [hbs, List.take_of_length_le (by omega), blocks_single hB lb₁] at x₁
  rw [hbs, List.take_of_length_le (by omega), blocks_single hB lb₂] at x₂
  refine ⟨_, _, _, scr₁, scr₂, x₁, x₂, ?_⟩
  have ha := hm.after
  rw [std_compress] at ha
  simp only [IterHash.chain, List.foldl_cons, List.foldl_nil]
  split
  · rcases ha with ha | ⟨-, -, -, ha⟩
    · rw [ha]
    · exact ha
  · rename_i hk
    rcases ha with ha | ⟨h, -⟩
    · exact ha
    · exact absurd h hk

/-- The hypotheses hold for two clients of the MD5 of the code: with the two messages of Wang et al. -/
example : ∃ i j, Kind.Meets .md5 (message [(wang₁, junk0 .md5)]) (message [(wang₂, junk0 .md5)]) i j := by
  have v : ∀ w : List Byte, w.length = 128 → ValidStream .md5 [(w, junk0 .md5)] (junk0 .md5) (List.replicate 16 0) 16 := by
    intro w hw
    refine ⟨?_, junk0_ok .md5, by decide, by simp⟩
    intro c hc
    rw [List.mem_singleton] at hc
    subst hc
    exact ⟨by rw [hw]; decide, junk0_ok .md5⟩
  have m : ∀ w : List Byte, message [(w, junk0 .md5)] = w := fun w => by simp [message]
  obtain ⟨p₁, t₁, e₁⟩ := stream_ok .md5 true (env0 .md5) (st0 32) _ _ _ _ rfl (v wang₁ rfl)
  obtain ⟨p₂, t₂, e₂⟩ := stream_ok .md5 false (env0 .md5) (st0 32) _ _ _ _ rfl (v wang₂ rfl)
  obtain ⟨i, j, h, -⟩ := C32_collision_located .md5 true false (env0 .md5) (env0 .md5) (st0 32) (st0 32) t₁ t₂ _ _ _ _ 16 16 _ _ _ _ p₁ p₂ rfl rfl (v wang₁ rfl) (v wang₂ rfl)
    (by rw [m]; decide +kernel) (by rw [m]; decide +kernel) (by rw [m, m]; exact wang_ne) e₁ e₂ (by
      rw [m, m, List.take_left' (digest_length .md5 _), List.take_left' (digest_length .md5 _)]
      exact wang_digest₁.trans wang_digest₂.symm)
  exact ⟨i, j, h⟩

/-- An environment in which every name is that of a file with these bytes. -/
def envOf (c : List Byte) : Environment := { env1 with files := fun _ => some ⟨c, some c.length, fun _ => some 1000⟩ }

theorem envOf_ok (c : List Byte) : EnvOk (envOf c) := ⟨tool0_ok, env1_ok.dp, rfl, rfl⟩

theorem envOf_bytes (c : List Byte) (source : List Nat) : FileBytes (envOf c) source c := ⟨_, _, rfl, rfl, Nat.le_refl _, by simp⟩

/-- Every file of less than 2^61 bytes gets its MD5 printed by some build. -/
theorem envOf_prints (c : List Byte) (hc : c.length < 2 ^ 61) : ∃ text, Prints (envOf c) (codes "file") .md5 text := by
  obtain ⟨lines, W', e, sel, hsel, rfl⟩ := C85_completes (hb := 32) (envOf c) (envOf_ok c) (exact_right (fun _ => .crypto .evpAllocated)) (by decide) (by decide) (fun k _ => exact_reliable k) (codes "hmacsum") groups0 (codes "file") [] line1 (mixed0 _)
    ⟨c, some c.length, fun _ => some 1000⟩ rfl rfl (fun _ => ⟨1000, rfl, by decide⟩) (fun _ => rfl) ⟨rfl, rfl, rfl, rfl⟩ rfl
    (fun s hs => ⟨46, [1], false, 2, true, .none, rfl, by decide, by
      rw [show lastArgument 112 (optionsOf groups0) = some (codes "1M") by decide] at hs
      cases hs
      decide, by decide, by decide, by decide⟩) (.inl fun _ h => by cases h) hc
  refine ⟨hex (Kind.md5.std.digest c), .run 32 _ _ (envOf_ok c) (exact_right (fun _ => .crypto .evpAllocated)) (by decide) (by decide) (codes "hmacsum") groups0 [] line1 (mixed0 _) W' _ e ?_⟩
  refine List.mem_cons_of_mem _ (List.mem_map.mpr ⟨.md5, List.mem_filter.mpr ⟨by decide, ?_⟩, rfl⟩)
  exact (hsel .md5).mpr (.inl rfl)

/-- C93. The exception is real: two different files for which hmacsum prints the same MD5 (the collision of Wang, Feng, Lai and Yu), whose computations meet. -/
theorem C93_exception : ∃ text, Prints (envOf wang₁) (codes "file") .md5 text ∧ Prints (envOf wang₂) (codes "file") .md5 text ∧ wang₁ ≠ wang₂ ∧ ∃ i j, Kind.Meets .md5 wang₁ wang₂ i j := by
  have l₁ : wang₁.length < 2 ^ 61 := by decide +kernel
  have l₂ : wang₂.length < 2 ^ 61 := by decide +kernel
  obtain ⟨t₁, p₁⟩ := envOf_prints wang₁ l₁
  obtain ⟨t₂, p₂⟩ := envOf_prints wang₂ l₂
  have e : t₁ = t₂ := by
    rw [p₁.digest (envOf_bytes _ _) l₁, p₂.digest (envOf_bytes _ _) l₂]
    exact congrArg hex (wang_digest₁.trans wang_digest₂.symm)
  subst e
  refine ⟨t₁, p₁, p₂, wang_ne, ?_⟩
  rcases (C93_equal_digests _ _ _ _ _ _ _ p₁ p₂ _ _ (envOf_bytes _ _) (envOf_bytes _ _) l₁ l₂).2 with h | h
  · exact absurd h wang_ne
  · exact h

/-- The hypotheses of C93_copies hold. -/
example (c : List Byte) (hc : c.length < 2 ^ 61) : ∃ t t', Prints (envOf c) (codes "file") .md5 t ∧ Prints (envOf c) (codes "file") .md5 t' ∧ t = t' := by
  obtain ⟨t, p⟩ := envOf_prints c hc
  obtain ⟨t', p'⟩ := envOf_prints c hc
  exact ⟨t, t', p, p', C93_copies _ _ _ _ _ _ _ p p' c (envOf_bytes _ _) (envOf_bytes _ _) hc⟩

/-- So do those of C93_meets: any two messages whose computations meet at the last blocks. -/
example (k : Kind) (a b : List Byte) (i j : Nat) (h : k.Meets a b i j) (hi : i + 1 = (k.compressed a).length) : k.std.digest a = k.std.digest b :=
  C93_meets k a b i j h (by rw [List.drop_of_length_le (by omega), List.drop_of_length_le (by have := h.distance; have := h.right; omega)])

end Props

import Verif.Model.Changing
import Verif.Proofs.Messages
import Verif.Proofs.Hmacsum
/-! A run over a changing source is a run over a fixed file: the file with the bytes that the reads deliver. -/

namespace Model

open Spec (Kind Line Source Pieces)

/-! ### What the hashing functions leave alone -/

theorem ctxCall_frame {T : Tool} {k : Kind} {c : Spec.ApiCall} {n : Nat} {h h' : Handle} {W W' : World} {r : Spec.Reply} (e : ctxCall T k c n h W = .ok (r, h', W')) : ∃ ctx, h' = { h with context := ctx } := by
  obtain ⟨a, -, e⟩ := Res.bind_eq_ok e
  cases e
  exact ⟨_, rfl⟩

theorem initHashes_frame {T : Tool} : ∀ {ks : List Kind} {h h' : Handle} {W W' : World} {ok : Bool}, initHashes T ks h W = .ok (ok, h', W') → ∃ ctx, h' = { h with context := ctx }
  | [], h, h', W, W', ok, e => by cases e; exact ⟨_, rfl⟩
  | k :: ks, h, h', W, W', ok, e => by
    unfold initHashes at e
    split at e
    · obtain ⟨⟨r, h1, W1⟩, e1, e⟩ := Res.bind_eq_ok e
      obtain ⟨c1, rfl⟩ := ctxCall_frame e1
      dsimp only at e
      split at e
      · cases e; exact ⟨_, rfl⟩
      · obtain ⟨c2, rfl⟩ := initHashes_frame e
        exact ⟨_, rfl⟩
    · exact initHashes_frame e

theorem freeHash_frame {T : Tool} {k : Kind} {h h' : Handle} {W W' : World} (e : freeHash T k h W = .ok (h', W')) : ∃ ctx, h' = { h with context := ctx } := by
  unfold freeHash at e
  split at e
  · cases e; exact ⟨_, rfl⟩
  · obtain ⟨⟨r, h1, W1⟩, e1, e⟩ := Res.bind_eq_ok e
    cases e
    exact ctxCall_frame e1

theorem initIntegrity_frame {T : Tool} {h h' : Handle} {W W' : World} {r : Int} (e : initIntegrity T h W = .ok (r, h', W')) : ∃ ctx, h' = { h with context := ctx } := by
  obtain ⟨⟨ok, h1, W1⟩, e1, e⟩ := Res.bind_eq_ok e
  obtain ⟨c1, rfl⟩ := initHashes_frame e1
  dsimp only at e
  split at e
  · cases e; exact ⟨_, rfl⟩
  · obtain ⟨⟨h2, W2⟩, e2, e⟩ := Res.bind_eq_ok e
    obtain ⟨⟨h3, W3⟩, e3, e⟩ := Res.bind_eq_ok e
    obtain ⟨c2, rfl⟩ := freeHash_frame e2
    obtain ⟨c3, rfl⟩ := freeHash_frame e3
    cases e
    exact ⟨_, rfl⟩

theorem updateHashes_frame {T : Tool} {buffer : List Byte} {size : Nat} : ∀ {ks : List Kind} {h h' : Handle} {W W' : World} {r : Int}, updateHashes T buffer size ks h W = .ok (r, h', W') →
    ∃ ctx, h' = { h with context := ctx }
  | [], h, h', W, W', r, e => by cases e; exact ⟨_, rfl⟩
  | k :: ks, h, h', W, W', r, e => by
    unfold updateHashes at e
    split at e
    · obtain ⟨⟨r, h1, W1⟩, e1, e⟩ := Res.bind_eq_ok e
      obtain ⟨c1, rfl⟩ := ctxCall_frame e1
      dsimp only at e
      split at e
      · cases e; exact ⟨_, rfl⟩
      · obtain ⟨c2, rfl⟩ := updateHashes_frame e
        exact ⟨_, rfl⟩
    · exact updateHashes_frame e

theorem updateIntegrity_frame {T : Tool} {buffer : List Byte} {size : Nat} {h h' : Handle} {W W' : World} {r : Int} (e : updateIntegrity T buffer size h W = .ok (r, h', W')) :
    ∃ ctx, h' = { h with context := ctx } := by
  unfold updateIntegrity at e
  split at e
  · cases e; exact ⟨_, rfl⟩
  · exact updateHashes_frame e

/-- Two continuations that agree on the results there can be. -/
theorem Res.bind_congr_ok {α β : Type} {x : Res α} {f g : α → Res β} (h : ∀ a, x = .ok a → f a = g a) : (x >>= f) = (x >>= g) := by
  cases x with
  | ok a => exact h a rfl
  | _ => rfl

/-! ### The reads -/

/-- What the reads deliver, up to a failure, an empty read or the end. -/
def delivered (S : Source) (most : Nat) : Nat → Nat → Nat → Nat → List (Option (List Byte))
  | 0, _, _, _ => []
  | fuel + 1, n, pos, left =>
    if left = 0 then []
    else match (S n pos (min most left)).map (List.take (min most left)) with
      | none => [none]
      | some d => some d :: if d = [] then [] else delivered S most fuel (n + 1) (pos + d.length) (left - d.length)

/-- The bytes delivered. -/
def bytesOf (ds : List (Option (List Byte))) : List Byte := (ds.filterMap id).flatten

/-- A fixed file of which the reads deliver the same. -/
def frozen (S : Source) (most n pos : Nat) (size : Option Nat) : Input where
  content := List.replicate pos 0 ++ bytesOf (delivered S most (size.getD 0) n pos (size.getD 0))
  size := size
  reads := fun i => match (delivered S most (size.getD 0) n pos (size.getD 0))[i - n]? with
    | none => some 1
    | some d => d.map List.length

theorem delivered_length (S : Source) (most : Nat) : ∀ fuel n pos left, (bytesOf (delivered S most fuel n pos left)).length ≤ left
  | 0, _, _, _ => by simp [delivered, bytesOf]
  | fuel + 1, n, pos, left => by
    unfold delivered
    split
    · simp [bytesOf]
    · split
      · simp [bytesOf]
      · rename_i d hd
        have hl : d.length ≤ left := by
          obtain ⟨d', -, rfl⟩ := Option.map_eq_some_iff.mp hd
          simp only [List.length_take]
          omega
        split
        · subst d; simp [bytesOf]
        · have := delivered_length S most fuel (n + 1) (pos + d.length) (left - d.length)
          simp only [bytesOf, List.filterMap_cons, id, List.flatten_cons, List.length_append] at this ⊢
          omega

/-- Nothing is missing if every read delivers something. -/
theorem delivered_all (S : Source) (most : Nat) (hm : 0 < most) (last : Nat) (hS : ∀ n pos m, pos < last → 0 < m → ∃ d, S n pos m = some d ∧ d ≠ []) : ∀ fuel n pos left, left ≤ fuel → pos + left ≤ last →
    (bytesOf (delivered S most fuel n pos left)).length = left ∧ ∀ x ∈ delivered S most fuel n pos left, ∃ d, x = some d ∧ d ≠ []
  | 0, _, _, left, h, _ => by
    obtain rfl : left = 0 := by omega
    simp [delivered, bytesOf]
  | fuel + 1, n, pos, left, h, hl => by
    unfold delivered
    split
    · rename_i h0
      subst h0
      simp [bytesOf]
    · rename_i h0
      obtain ⟨d0, e, hne⟩ := hS n pos (min most left) (by omega) (by omega)
      rw [e, Option.map_some]
      have hne' : d0.take (min most left) ≠ [] := by
        rw [Ne, List.take_eq_nil_iff]
        rintro (h | h)
        · omega
        · exact hne h
      have hdl : (d0.take (min most left)).length ≤ left := by rw [List.length_take]; omega
      have hd0 : 0 < (d0.take (min most left)).length := List.length_pos_of_ne_nil hne'
      generalize d0.take (min most left) = d at hne' hdl hd0
      dsimp only
      rw [if_neg hne']
      obtain ⟨h1, h2⟩ := delivered_all S most hm last hS fuel (n + 1) (pos + d.length) (left - d.length) (by omega) (by omega)
      refine ⟨?_, fun x hx => ?_⟩
      · simp only [bytesOf, List.filterMap_cons, id, List.flatten_cons, List.length_append] at h1 ⊢
        omega
      · rcases List.mem_cons.mp hx with rfl | hx
        · exact ⟨d, rfl, hne'⟩
        · exact h2 x hx

/-- The pieces are what the specification calls pieces. -/
theorem delivered_pieces (S : Source) (most : Nat) : ∀ fuel n pos left, ∃ ds, Pieces S most n pos left ds ∧ ds.flatten = bytesOf (delivered S most fuel n pos left)
  | 0, n, pos, left => ⟨[], .done n pos left, by simp [delivered, bytesOf]⟩
  | fuel + 1, n, pos, left => by
    unfold delivered
    split
    · exact ⟨[], .done n pos left, by simp [bytesOf]⟩
    · split
      · exact ⟨[], .done n pos left, by simp [bytesOf]⟩
      · rename_i d hd
        split
        · subst d
          exact ⟨[], .done n pos left, by simp [bytesOf]⟩
        · rename_i hne
          obtain ⟨ds, h1, h2⟩ := delivered_pieces S most fuel (n + 1) (pos + d.length) (left - d.length)
          exact ⟨d :: ds, .more n pos left d ds hd hne h1, by simpa [bytesOf] using h2⟩

theorem sourceLoop_eq (T : Tool) (S : Source) (inp : Input) (aborted : Nat → Bool) (size : Nat) : ∀ (fuel count : Nat) (buffer : List Byte) (h : Handle) (W : World), h.bufferSize ≤ ssizeMax →
    inp.content.drop h.position = bytesOf (delivered S h.bufferSize fuel h.readCount h.position (size - count)) →
    (∀ i x, (delivered S h.bufferSize fuel h.readCount h.position (size - count))[i]? = some x → inp.reads (h.readCount + i) = x.map List.length) →
    sourceLoop T S aborted size fuel count buffer h W = processLoop T inp aborted size fuel count buffer h W
  | 0, count, buffer, h, W, _, _, _ => by rw [sourceLoop, processLoop]
  | fuel + 1, count, buffer, h, W, hb, hc, hr => by
    rw [sourceLoop, processLoop]
    by_cases hlt : count < size
    · rw [if_pos hlt, if_pos hlt]
      have hmin : (if size - count < h.bufferSize then size - count else h.bufferSize) = min h.bufferSize (size - count) := by split <;> omega
      simp only [hmin]
      have hle : ¬ ssizeMax < min h.bufferSize (size - count) := by omega
      unfold delivered at hc hr
      rw [if_neg (by omega)] at hc hr
      have hr0 := hr 0
      rw [readSource, readInput, if_neg hle, if_neg hle]
      cases hS : S h.readCount h.position (min h.bufferSize (size - count)) with
      | none =>
        simp only [hS, Option.map_none] at hr0
        rw [show inp.reads h.readCount = none from hr0 none rfl]
      | some d0 =>
        simp only [hS, Option.map_some] at hr hc hr0
        generalize hd : d0.take (min h.bufferSize (size - count)) = d at hr hc hr0 ⊢
        have hdl : d.length ≤ min h.bufferSize (size - count) := by rw [← hd, List.length_take]; omega
        rw [show inp.reads h.readCount = some d.length from hr0 (some d) rfl]
        have hdd : (inp.content.drop h.position).take (min d.length (min h.bufferSize (size - count))) = d := by
          rw [hc, Nat.min_eq_left hdl]
          simp [bytesOf]
        simp only [hdd, hd]
        refine Res.bind_congr_ok fun buffer' _ => ?_
        by_cases hz : d.length = 0
        · rw [if_pos hz, if_pos hz]
        · rw [if_neg hz, if_neg hz]
          have hne : d ≠ [] := fun h0 => hz (by rw [h0]; rfl)
          rw [if_neg hne] at hr hc
          refine Res.bind_congr_ok fun x hx => ?_
          obtain ⟨r, h1, W1⟩ := x
          obtain ⟨ctx, rfl⟩ := updateIntegrity_frame hx
          dsimp only
          split
          · rfl
          · split
            · rfl
            · refine sourceLoop_eq T S inp aborted size fuel _ _ _ _ hb ?_ fun i x hx => ?_
              · dsimp only
                rw [← List.drop_drop, hc, Nat.sub_add_eq]
                simp [bytesOf]
              · dsimp only
                rw [Nat.sub_add_eq] at hx
                rw [Nat.add_right_comm, Nat.add_assoc]
                exact hr (i + 1) x hx
    · rw [if_neg hlt, if_neg hlt]

/-- Processing a changing source is processing the fixed file. -/
theorem processSource_eq (T : Tool) (S : Source) (size : Option Nat) (aborted : Nat → Bool) (h : Handle) (W : World) :
    processSource T S size aborted h W = processInput T (frozen S h.bufferSize h.readCount h.position size) aborted h W := by
  unfold processSource processInput
  split
  · rfl
  · rename_i hbs
    cases size with
    | none => rfl
    | some m =>
      dsimp only [frozen]
      rcases allocBlock T W with ⟨_ | p, W0⟩
      · rfl
      · refine Res.bind_congr_ok fun x hx => ?_
        obtain ⟨r, h1, W1⟩ := x
        obtain ⟨ctx, rfl⟩ := initIntegrity_frame hx
        dsimp only
        split
        · rfl
        · rw [sourceLoop_eq T S (frozen S h.bufferSize h.readCount h.position (some m)) aborted m m 0 _ _ _ (by dsimp only; omega)]
          · rfl
          · dsimp only [frozen]
            rw [List.drop_left' List.length_replicate]
            rfl
          · intro i x hx
            have hx : (delivered S h.bufferSize m h.readCount h.position m)[i]? = some x := hx
            simp only [frozen, Nat.add_sub_cancel_left, Option.getD_some, hx]

theorem readSource_fixed (inp : Input) (size : Nat) (h : Handle) : readSource (Spec.fileSource (fun _ => inp.content) inp.reads) size h = readInput inp size h := by
  unfold readSource readInput Spec.fileSource
  split
  · rfl
  · cases inp.reads h.readCount with
    | none => rfl
    | some c =>
      simp only [Option.map_some]
      rw [List.take_take, Nat.min_eq_right (Nat.min_le_right c size)]

theorem sourceLoop_fixed (T : Tool) (inp : Input) (aborted : Nat → Bool) (size : Nat) : ∀ (fuel count : Nat) (buffer : List Byte) (h : Handle) (W : World),
    sourceLoop T (Spec.fileSource (fun _ => inp.content) inp.reads) aborted size fuel count buffer h W = processLoop T inp aborted size fuel count buffer h W
  | 0, count, buffer, h, W => by rw [sourceLoop, processLoop]
  | fuel + 1, count, buffer, h, W => by
    rw [sourceLoop, processLoop]
    simp only [readSource_fixed, sourceLoop_fixed T inp aborted size fuel]
    rfl

/-- For a file that does not change the functions are those of Model/SumHandle.lean. -/
theorem processSource_fixed (T : Tool) (inp : Input) (aborted : Nat → Bool) (h : Handle) (W : World) :
    processSource T (Spec.fileSource (fun _ => inp.content) inp.reads) inp.size aborted h W = processInput T inp aborted h W := by
  unfold processSource processInput
  simp only [sourceLoop_fixed]
  rfl

theorem sourceAndPrint_eq (E : Environment) (S : Source) (size : Option Nat) (out : List Line) (h : Handle) (W : World) :
    sourceAndPrint E S size out h W = processAndPrint E (frozen S h.bufferSize h.readCount h.position size) out h W := by
  rw [sourceAndPrint, processAndPrint, processSource_eq]

/-- The environment with a fixed file instead. -/
def Environment.withFile (E : Environment) (sources : List Nat → Option (Source × Option Nat)) (most : Nat) : Environment :=
  { E with files := fun name => (sources name).map fun x => frozen x.1 most 0 0 x.2 }

theorem openSource_eq (E : Environment) (sources : List Nat → Option (Source × Option Nat)) (source : List Nat) (out : List Line) (h : Handle) (W : World) (h0 : h.readCount = 0) :
    openSource E sources source out h W = openAndProcess (E.withFile sources h.bufferSize) source out h W := by
  unfold openSource openAndProcess
  rw [show (E.withFile sources h.bufferSize).files source = (sources source).map fun x => frozen x.1 h.bufferSize 0 0 x.2 from rfl]
  cases sources source with
  | none => rfl
  | some x =>
    obtain ⟨S, size⟩ := x
    simp only [Option.map_some]
    rw [sourceAndPrint_eq, show (openInput true h).2.readCount = 0 from h0]
    rfl

theorem sumInitialize_handle {T : Tool} {W W' : World} {r : Int} {h : Handle} (e : sumInitialize T none W = .ok (r, some h, W')) : h.readCount = 0 ∧ h.bufferSize = 32768 := by
  unfold sumInitialize at e
  dsimp only at e
  rcases h1 : allocBlock T W with ⟨_ | p1, W1⟩ <;> rw [h1] at e
  · cases e
  · dsimp only at e
    rcases h2 : allocBlock T W1 with ⟨_ | p2, W2⟩ <;> rw [h2] at e
    · obtain ⟨V, -, e⟩ := Res.bind_eq_ok e
      cases e
    · dsimp only at e
      rcases h3 : allocBlock T W2 with ⟨_ | p3, W3⟩ <;> rw [h3] at e
      · obtain ⟨V, -, e⟩ := Res.bind_eq_ok e
        cases e
      · cases e
        exact ⟨rfl, rfl⟩

theorem applyBufferSize_reads {E : Environment} {o : Options} {h h' : Handle} {ok : Bool} (e : applyBufferSize E o h = .ok (ok, h')) : h'.readCount = h.readCount := by
  unfold applyBufferSize at e
  split at e
  · cases e; rfl
  · obtain ⟨⟨r, h1⟩, e1, e⟩ := Res.bind_eq_ok e
    have hh : h1.readCount = h.readCount := by
      obtain ⟨⟨r', v⟩, -, e1⟩ := Res.bind_eq_ok e1
      dsimp only at e1
      split at e1
      · cases e1; rfl
      · split at e1
        · split at e1
          · cases e1
          · split at e1 <;> cases e1 <;> rfl
        · cases e1; rfl
    dsimp only at e
    split at e
    · cases e; exact hh
    · split at e <;> cases e <;> exact hh

theorem enableDigests_reads {T : Tool} {f : Kind → Bool} : ∀ (ks : List Kind) (h : Handle) (W : World), (enableDigests T f ks h W).2.1.readCount = h.readCount
  | [], _, _ => rfl
  | k :: ks, h, W => by
    unfold enableDigests
    split
    · split
      · rfl
      · rw [enableDigests_reads]
    · exact enableDigests_reads ks h W

theorem applyDigests_reads {E : Environment} {o : Options} {h h' : Handle} {W W' : World} {ok : Bool} (e : applyDigests E o h W = .ok (ok, h', W')) : h'.readCount = h.readCount := by
  unfold applyDigests at e
  split at e
  · cases e; rfl
  · obtain ⟨⟨r, h1, W1⟩, e1, e⟩ := Res.bind_eq_ok e
    cases e
    unfold setDigestTypes at e1
    split at e1
    · cases e1; rfl
    · obtain ⟨f, -, e1⟩ := Res.bind_eq_ok e1
      have := enableDigests_reads (T := E.tool) (f := f) digestOrder h W
      rcases hx : enableDigests E.tool f digestOrder h W with ⟨b, h1, W1⟩
      rw [hx] at e1 this
      cases e1
      exact this

theorem applyBufferSize_pos {E : Environment} {o : Options} {h h' : Handle} {ok : Bool} (ho : BufferOptionOk E o) (hb : 0 < h.bufferSize) (e : applyBufferSize E o h = .ok (ok, h')) : 0 < h'.bufferSize := by
  unfold applyBufferSize at e
  split at e
  · cases e; exact hb
  · rename_i s hs
    obtain ⟨r, n, e1, hr⟩ := ho s hs h
    rw [e1, Res.ok_bind] at e
    dsimp only at e
    split at e
    · omega
    · split at e
      · cases e
        exact Nat.zero_lt_succ _
      · cases e
        show 0 < n
        omega

theorem enableDigests_bufferSize {T : Tool} {f : Kind → Bool} : ∀ (ks : List Kind) (h : Handle) (W : World), (enableDigests T f ks h W).2.1.bufferSize = h.bufferSize
  | [], _, _ => rfl
  | k :: ks, h, W => by
    unfold enableDigests
    split
    · split
      · rfl
      · rw [enableDigests_bufferSize]
    · exact enableDigests_bufferSize ks h W

theorem applyDigests_bufferSize {E : Environment} {o : Options} {h h' : Handle} {W W' : World} {ok : Bool} (e : applyDigests E o h W = .ok (ok, h', W')) : h'.bufferSize = h.bufferSize := by
  unfold applyDigests at e
  split at e
  · cases e; rfl
  · obtain ⟨⟨r, h1, W1⟩, e1, e⟩ := Res.bind_eq_ok e
    cases e
    unfold setDigestTypes at e1
    split at e1
    · cases e1; rfl
    · obtain ⟨f, -, e1⟩ := Res.bind_eq_ok e1
      have := enableDigests_bufferSize (T := E.tool) (f := f) digestOrder h W
      rcases hx : enableDigests E.tool f digestOrder h W with ⟨b, h1, W1⟩
      rw [hx] at e1 this
      cases e1
      exact this

theorem runChanging_eq (E : Environment) (sources : List Nat → Option (Source × Option Nat)) (o : Options) (source : List Nat) (out : List Line) (W : World) :
    ∃ most, (BufferOptionOk E o → 0 < most) ∧ runChanging E sources o source out W = runSource (E.withFile sources most) o source out W := by
  unfold runChanging runSource
  cases h1 : sumInitialize E.tool none W with
  | ub => exact ⟨1, fun _ => Nat.one_pos, by rw [show (E.withFile sources 1).tool = E.tool from rfl, h1]; rfl⟩
  | diverge => exact ⟨1, fun _ => Nat.one_pos, by rw [show (E.withFile sources 1).tool = E.tool from rfl, h1]; rfl⟩
  | ok x =>
    obtain ⟨r, slot, W1⟩ := x
    have ht : ∀ m, (E.withFile sources m).tool = E.tool := fun _ => rfl
    simp only [ht, h1, Res.ok_bind]
    split
    · exact ⟨1, fun _ => Nat.one_pos, rfl⟩
    · cases slot with
      | none => exact ⟨1, fun _ => Nat.one_pos, rfl⟩
      | some h =>
        dsimp only
        have hb : ∀ m, applyBufferSize (E.withFile sources m) o h = applyBufferSize E o h := fun _ => rfl
        simp only [hb]
        cases h2 : applyBufferSize E o h with
        | ub => exact ⟨1, fun _ => Nat.one_pos, rfl⟩
        | diverge => exact ⟨1, fun _ => Nat.one_pos, rfl⟩
        | ok y =>
          obtain ⟨ok, h'⟩ := y
          simp only [Res.ok_bind]
          split
          · exact ⟨1, fun _ => Nat.one_pos, rfl⟩
          · have hd : ∀ m, applyDigests (E.withFile sources m) o h' W1 = applyDigests E o h' W1 := fun _ => rfl
            simp only [hd]
            cases h3 : applyDigests E o h' W1 with
            | ub => exact ⟨1, fun _ => Nat.one_pos, rfl⟩
            | diverge => exact ⟨1, fun _ => Nat.one_pos, rfl⟩
            | ok z =>
              obtain ⟨ok2, h2', W2⟩ := z
              simp only [Res.ok_bind]
              split
              · exact ⟨1, fun _ => Nat.one_pos, rfl⟩
              · exact ⟨h2'.bufferSize, fun ho => by
                  rw [applyDigests_bufferSize h3]
                  exact applyBufferSize_pos ho (by rw [(sumInitialize_handle h1).2]; decide) h2, openSource_eq E sources source out h2' W2 ((applyDigests_reads h3).trans ((applyBufferSize_reads h2).trans (sumInitialize_handle h1).1))⟩

end Model

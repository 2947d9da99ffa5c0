import Verif.Props.PyJobsMore
/-! C70: what goes wrong if calls on one object overlap. -/

namespace Props

open Model Spec

/-! ## What goes wrong -/

/-- Threads that share object 0, without anything to protect it. -/
def sharedJobs (k : Kind) (prog : Nat → List PyCall) : PyJobs fun _ => k := ⟨fun t => ⟨prog t, [], .idle⟩, fun _ => ctxMade k [], fun _ => none, []⟩

theorem begin_shared (k : Kind) (prog : Nat → List PyCall) : Begin (sharedJobs k prog) prog fun _ => [] :=
  ⟨fun _ => rfl, fun _ => given_made k [] (by simp) (by cases k <;> decide +kernel), fun _ => rfl, rfl⟩

/-- What threads 0 and 1 have got, and whether they have returned. -/
def seen {kinds : Nat → Kind} : Res (PyJobs kinds) → Option ((List PyResult × Bool) × (List PyResult × Bool))
  | .ok W => some (((W.threads 0).results, decide ((W.threads 0).pc = .idle)), ((W.threads 1).results, decide ((W.threads 1).pc = .idle)))
  | _ => none

/-- Initial contents of the array of `finalize`. -/
def out0 : Nat → Kind → List Byte := fun _ k => List.replicate k.hashSize 0xaa

/-- The calls: thread 0 takes the digest, thread 1 adds a byte. -/
def prog01 : Nat → List PyCall := fun t => if t = 0 then [.finalize 0 true] else if t = 1 then [.update 0 (some (.bytes [1]))] else []

/-- Steps of one thread after the other do not change what thread 0 has got once it has nothing more to do. -/
theorem results_kept {kinds : Nat → Kind} (S : PySerial kinds) (t : Nat) (h : S.todo 0 = []) : (S.next t).todo 0 = [] ∧ (S.next t).results 0 = S.results 0 := by
  unfold PySerial.next
  cases htodo : S.todo t with
  | nil => exact ⟨h, rfl⟩
  | cons call rest =>
    have ht : (0 : Nat) ≠ t := fun e => by rw [← e, h] at htodo; cases htodo
    simp [Function.update_of_ne ht, h]

/-- The order in which the calls are made makes one of two digests. -/
theorem serial01 (k : Kind) (order : List Nat) : (oneAfterTheOther (fun _ => k) prog01 (fun _ => []) order).results 0 = [] ∨
    (oneAfterTheOther (fun _ => k) prog01 (fun _ => []) order).results 0 = [.bytes (k.len64.digest [])] ∨ (oneAfterTheOther (fun _ => k) prog01 (fun _ => []) order).results 0 = [.bytes (k.len64.digest [1])] := by
  suffices H : ∀ (order : List Nat) (S : PySerial fun _ => k), (S.todo 0 = [.finalize 0 true] ∧ S.results 0 = [] ∧ (∀ t, 2 ≤ t → S.todo t = []) ∧
        (S.todo 1 = [.update 0 (some (.bytes [1]))] ∧ S.objects 0 = some (some (k.len64.iv, [])) ∨ S.todo 1 = [] ∧ S.objects 0 = some (some (k.len64.iv, [1])))) ∨
        S.todo 0 = [] ∧ (S.results 0 = [.bytes (k.len64.digest [])] ∨ S.results 0 = [.bytes (k.len64.digest [1])]) →
      (S.run order).results 0 = [] ∨ (S.run order).results 0 = [.bytes (k.len64.digest [])] ∨ (S.run order).results 0 = [.bytes (k.len64.digest [1])] from
    H order _ (.inl ⟨rfl, rfl, fun t ht => by simp [prog01, show t ≠ 0 by omega, show t ≠ 1 by omega], .inl ⟨rfl, rfl⟩⟩)
  intro order
  induction order with
  | nil =>
    rintro S (⟨-, h, -⟩ | ⟨-, h⟩)
    · exact .inl h
    · exact .inr h
  | cons t ts ih =>
    intro S h
    refine ih (S.next t) ?_
    rcases h with ⟨h0, hr, h2, h1⟩ | ⟨h0, hr⟩
    · match t with
      | 0 =>
        right
        unfold PySerial.next
        rw [h0]
        rcases h1 with ⟨h1, ho⟩ | ⟨h1, ho⟩
        · simp [PyCall.op, pyStep, ho, hr, IterHash.digest]
        · simp [PyCall.op, pyStep, ho, hr, IterHash.digest]
      | 1 =>
        left
        unfold PySerial.next
        rcases h1 with ⟨h1, ho⟩ | ⟨h1, ho⟩
        · rw [h1]
          refine ⟨by simp [h0], by simp [hr], fun t ht => ?_, .inr ⟨by simp, ?_⟩⟩
          · simp [show t ≠ 1 by omega, h2 t ht]
          · simp [PyCall.op, pyStep, ho, pyBytes, maxSize]
        · rw [h1]
          exact ⟨h0, hr, h2, .inr ⟨h1, ho⟩⟩
      | t + 2 =>
        left
        unfold PySerial.next
        rw [h2 (t + 2) (by omega)]
        exact ⟨h0, hr, h2, h1⟩
    · obtain ⟨a, b⟩ := results_kept S t h0
      exact .inr ⟨a, by rw [b]; exact hr⟩

/-- What `finalize` returns in `C70_mixed`, as a computation on the model. -/
def mixedDigest (k : Kind) : List Byte :=
  match finIter (algOf k) true (junk0 k) (out0 0 k) (algOf k).hashSize 3 (.transform (algOf k).blockSize, ⟨0, (ctxMade k []).hashValues, 1, 1 :: (ctxMade k []).block.tail⟩) with
  | .ok (.ret _ h, _) => h
  | _ => []

set_option maxHeartbeats 1000000 in
-- ten runs of the model in the kernel
theorem mixed_seen (k : Kind) (u : Bool) : seen (jobsRun (kinds := fun _ => k) false u (fun _ k => junk0 k) out0 (List.replicate 7 0 ++ List.replicate 8 1 ++ List.replicate 4 0) (sharedJobs k prog01)) =
    some (([.bytes (mixedDigest k)], true), ([.none], true)) := by cases u <;> cases k <;> decide +kernel

set_option maxHeartbeats 1000000 in
-- ten runs of the model in the kernel
theorem mixed_wrong (k : Kind) : oneUpdate k true [] ≠ goodReplies 1 (mixedDigest k) ∧ oneUpdate k true [1] ≠ goodReplies 1 (mixedDigest k) := by
  constructor <;> cases k <;> decide +kernel

/-- C70: without locks calls on one object must not overlap. One thread calls `finalize`, another one `update` with one byte, on a new object, and both calls succeed; but the bytes that `finalize` returns are neither the digest
of nothing nor the digest of the byte. They are not what any order of the two calls gives. -/
theorem C70_mixed (k : Kind) (u : Bool) : ∃ (W W' : PyJobs fun _ => k) (sched : List Nat) (d : List Byte), Begin W prog01 (fun _ => []) ∧ jobsRun false u (fun _ k => junk0 k) out0 sched W = .ok W' ∧
    (W'.threads 0).pc = .idle ∧ (W'.threads 1).pc = .idle ∧ (W'.threads 0).results = [.bytes d] ∧ (W'.threads 1).results = [.none] ∧
    ∀ order, (oneAfterTheOther (fun _ => k) prog01 (fun _ => []) order).results 0 ≠ [.bytes d] := by
  have e := mixed_seen k u
  revert e
  generalize hr : jobsRun (kinds := fun _ => k) false u (fun _ k => junk0 k) out0 (List.replicate 7 0 ++ List.replicate 8 1 ++ List.replicate 4 0) (sharedJobs k prog01) = R
  cases R with
  | ub => intro e; cases e
  | diverge => intro e; cases e
  | ok W' =>
    intro hs
    simp only [seen, Option.some.injEq, Prod.mk.injEq, decide_eq_true_eq] at hs
    have e := mixed_wrong k
    rw [oneUpdate_eq _ _ _ (by simp), oneUpdate_eq _ _ _ (by simp), ← small_digest _ _ (by simp), ← small_digest _ _ (by simp)] at e
    generalize mixedDigest k = d at hs e
    refine ⟨_, W', _, d, begin_shared k prog01, hr, hs.1.2, hs.2.2, hs.1.1, hs.2.1, fun order h => ?_⟩
    rcases serial01 k order with h' | h' | h' <;> rw [h'] at h
    · cases h
    · rw [show k.len64.digest [] = d by simpa using h] at e
      exact e.1 rfl
    · rw [show k.len64.digest [1] = d by simpa using h] at e
      exact e.2 rfl

/-- The calls: threads 0 and 1 take the digest. -/
def prog00 : Nat → List PyCall := fun t => if t ≤ 1 then [.finalize 0 true] else []

theorem serial00 (k : Kind) (order : List Nat) : (oneAfterTheOther (fun _ => k) prog00 (fun _ => []) order).results 0 = [] ∨
    (oneAfterTheOther (fun _ => k) prog00 (fun _ => []) order).results 0 = [.bytes (k.len64.digest [])] ∨
    (oneAfterTheOther (fun _ => k) prog00 (fun _ => []) order).results 0 = [.bytes (k.len64.digestFrom (List.replicate k.words 0) [])] := by
  suffices H : ∀ (order : List Nat) (S : PySerial fun _ => k), (S.todo 0 = [.finalize 0 true] ∧ S.results 0 = [] ∧ (∀ t, 2 ≤ t → S.todo t = []) ∧
        (S.todo 1 = [.finalize 0 true] ∧ S.objects 0 = some (some (k.len64.iv, [])) ∨ S.todo 1 = [] ∧ S.objects 0 = some (some (List.replicate k.words 0, [])))) ∨
        S.todo 0 = [] ∧ (S.results 0 = [.bytes (k.len64.digest [])] ∨ S.results 0 = [.bytes (k.len64.digestFrom (List.replicate k.words 0) [])]) →
      (S.run order).results 0 = [] ∨ (S.run order).results 0 = [.bytes (k.len64.digest [])] ∨ (S.run order).results 0 = [.bytes (k.len64.digestFrom (List.replicate k.words 0) [])] from
    H order _ (.inl ⟨rfl, rfl, fun t ht => by simp [prog00, show ¬t ≤ 1 by omega], .inl ⟨rfl, rfl⟩⟩)
  intro order
  induction order with
  | nil =>
    rintro S (⟨-, h, -⟩ | ⟨-, h⟩)
    · exact .inl h
    · exact .inr h
  | cons t ts ih =>
    intro S h
    refine ih (S.next t) ?_
    rcases h with ⟨h0, hr, h2, h1⟩ | ⟨h0, hr⟩
    · match t with
      | 0 =>
        right
        unfold PySerial.next
        rw [h0]
        rcases h1 with ⟨h1, ho⟩ | ⟨h1, ho⟩
        · simp [PyCall.op, pyStep, ho, hr, IterHash.digest]
        · simp [PyCall.op, pyStep, ho, hr]
      | 1 =>
        left
        unfold PySerial.next
        rcases h1 with ⟨h1, ho⟩ | ⟨h1, ho⟩
        · rw [h1]
          refine ⟨by simp [h0], by simp [hr], fun t ht => ?_, .inr ⟨by simp, ?_⟩⟩
          · simp [show t ≠ 1 by omega, h2 t ht]
          · simp [PyCall.op, pyStep, ho]
        · rw [h1]
          exact ⟨h0, hr, h2, .inr ⟨h1, ho⟩⟩
      | t + 2 =>
        left
        unfold PySerial.next
        rw [h2 (t + 2) (by omega)]
        exact ⟨h0, hr, h2, h1⟩
    · obtain ⟨a, b⟩ := results_kept S t h0
      exact .inr ⟨a, by rw [b]; exact hr⟩

set_option maxHeartbeats 1000000 in
-- ten runs of the model in the kernel
theorem zeros_seen (k : Kind) (u : Bool) : (match seen (jobsRun (kinds := fun _ => k) false u (fun _ k => junk0 k) out0 (List.replicate 8 0 ++ List.replicate 11 1 ++ List.replicate 3 0) (sharedJobs k prog00)) with
    | some ((r, true), (_, true)) => decide (r = [.bytes (List.replicate k.hashSize 0)])
    | _ => false) = true := by cases u <;> cases k <;> decide +kernel

theorem zeros_wrong (k : Kind) : oneUpdate k true [] ≠ goodReplies 1 (List.replicate k.hashSize 0) := by cases k <;> decide +kernel

theorem zeros_wrong_again (k : Kind) : (match ctxFinalize (algOf k) true (junk0 k) (some (zeroCtx (algOf k))) (some (List.replicate k.hashSize 0)) k.hashSize with
    | .ok (_, _, some h) => decide (h ≠ List.replicate k.hashSize 0)
    | _ => false) = true := by cases k <;> decide +kernel

/-- C70: two threads that call `finalize` on one object at the same time can get a digest of zeros only, without an exception, for every function. No order of the two calls gives it. -/
theorem C70_zeros (k : Kind) (u : Bool) : ∃ (W W' : PyJobs fun _ => k) (sched : List Nat), Begin W prog00 (fun _ => []) ∧ jobsRun false u (fun _ k => junk0 k) out0 sched W = .ok W' ∧
    (W'.threads 0).pc = .idle ∧ (W'.threads 1).pc = .idle ∧ (W'.threads 0).results = [.bytes (List.replicate k.hashSize 0)] ∧
    ∀ order, (oneAfterTheOther (fun _ => k) prog00 (fun _ => []) order).results 0 ≠ [.bytes (List.replicate k.hashSize 0)] := by
  have e := zeros_seen k u
  have n1 := zeros_wrong k
  have n2 := zeros_wrong_again k
  obtain ⟨enc, L⟩ := lawful k
  rw [ctxFinalize_ok L (h0 := List.replicate (algOf k).nHash 0) (by simp) true (junk0 k) (scrOk_of_junk (junk0_ok k)) _ _ _ (by cases k <;> decide) (by rw [algOf_hashSize]) (by simp) (zeroCtx_rep L), algOf_hashSize,
    List.drop_of_length_le (by simp), List.append_nil, algOf_nHash] at n2
  simp only [decide_eq_true_eq] at n2
  rw [oneUpdate_eq _ _ _ (by simp), ← small_digest _ _ (by simp)] at n1
  revert e
  generalize hr : jobsRun (kinds := fun _ => k) false u (fun _ k => junk0 k) out0 (List.replicate 8 0 ++ List.replicate 11 1 ++ List.replicate 3 0) (sharedJobs k prog00) = R
  cases R with
  | ub => intro e; cases e
  | diverge => intro e; cases e
  | ok W' =>
    intro e
    split at e
    · rename_i r x hs
      simp only [seen, Option.some.injEq, Prod.mk.injEq, decide_eq_true_eq] at hs e
      refine ⟨_, W', _, begin_shared k prog00, hr, hs.1.2, hs.2.2, hs.1.1.trans e, fun order h => ?_⟩
      rcases serial00 k order with h' | h' | h' <;> rw [h'] at h
      · cases h
      · rw [show k.len64.digest [] = _ by simpa using h] at n1
        exact n1 rfl
      · exact n2 (by simpa using h)
    · cases e

/-! ## The hypotheses hold in concrete cases -/

/-- Threads 0 and 1 share an object, with a lock; thread 1 begins first, and thread 0 waits for it. -/
example := C70_locked (fun _ => .sha1) true (fun _ k => junk0 k) (fun _ k => junk0_ok k) out0 (fun _ _ => List.length_replicate) (sharedJobs .sha1 prog01) prog01 (fun _ => []) (begin_shared .sha1 prog01)
  ([1, 0, 1] ++ List.replicate 15 1 ++ List.replicate 12 0)

/-- There thread 0 gets the digest of the byte. -/
example : (match seen (jobsRun (kinds := fun _ => .sha1) true true (fun _ k => junk0 k) out0 ([1, 0, 1] ++ List.replicate 15 1 ++ List.replicate 12 0) (sharedJobs .sha1 prog01)) with
    | some (([.bytes d], true), ([.none], true)) => decide (oneUpdate .sha1 true [1] = goodReplies 1 d)
    | _ => false) = true := by decide +kernel

/-- Threads 0 and 1 with an object of its own each, one SHA-256 and one MD5, interleaved step by step. -/
def kinds01 : Nat → Kind := fun o => if o = 0 then .sha256 else .md5

def ownJobs (bs : Nat → List (List Byte)) : PyJobs kinds01 := ⟨fun t => ⟨hashing t (bs t), [], .idle⟩, fun o => ctxMade (kinds01 o) [], fun _ => none, []⟩

example : ∃ W', jobsRun false true (fun _ k => junk0 k) out0 ((List.replicate 48 [0, 1]).flatten) (ownJobs fun t => [[BitVec.ofNat 8 t], [7]]) = .ok W' ∧
    (W'.threads 0).results = [.none, .none, .bytes (Kind.sha256.std.digest [0, 7])] ∧ (W'.threads 1).results = [.none, .none, .bytes (Kind.md5.std.digest [1, 7])] := by
  obtain ⟨W', e, h⟩ := C70_digests kinds01 true (fun _ k => junk0 k) (fun _ k => junk0_ok k) out0 (fun _ _ => List.length_replicate) (ownJobs fun t => [[BitVec.ofNat 8 t], [7]]) (fun t => [[BitVec.ofNat 8 t], [7]])
    (by intro t b hb; simp at hb; rcases hb with rfl | rfl <;> simp [maxSize])
    (by intro t; unfold kinds01; split <;> simp [Kind.LengthOk])
    ⟨fun _ => rfl, fun o => given_made _ [] (by simp) (by generalize kinds01 o = k; cases k <;> decide +kernel), fun _ => rfl, rfl⟩ ((List.replicate 48 [0, 1]).flatten)
  exact ⟨W', e, h 0 (by decide), h 1 (by decide)⟩

end Props

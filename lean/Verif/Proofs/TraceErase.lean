import Verif.Proofs.Trace
/-! The API functions with observations compute what the functions without them compute. -/

set_option linter.unusedSimpArgs false

namespace Model

open Spec (ApiCall Reply Kind)

theorem iteCongr {α} {p q : Prop} [Decidable p] [Decidable q] {a b c d : α} (h : p ↔ q) (k : a = c) (l : b = d) : (if p then a else b) = if q then c else d := by
  subst k l
  by_cases hq : q
  · rw [if_pos hq, if_pos (h.mpr hq)]
  · rw [if_neg hq, if_neg (fun x => hq (h.mp x))]

/-- The block function with observations computes what the one without computes. -/
def TAlg.Faithful {w} (T : TAlg w) : Prop := ∀ n u c b o s, (T.blockFn n u c b o s).res = T.alg.blockFn u c b o s

theorem talgOf_alg (k : Kind) : (talgOf k).alg = algOf k := by cases k <;> rfl

theorem talgOf_faithful (k : Kind) : (talgOf k).Faithful := by
  cases k
  · exact fun n u c b o s => tMd5Block_res n u c b o s
  · exact fun n u c b o s => tSha1Block_res n u c b o s
  · exact fun n u c b o s => tSha2Block_res sha224P n u c b o s
  · exact fun n u c b o s => tSha2Block_res sha256P n u c b o s
  · exact fun n u c b o s => tSha2Block_res sha512P n u c b o s

@[simp] theorem tCtxInitialize_res {w} (A : Alg w) (a : Option (Ctx w)) (c : Option (Option (Ctx w))) : (tCtxInitialize A a c).res = ctxInitialize A a c := by
  unfold tCtxInitialize ctxInitialize
  rcases c with _ | _ | c <;> cases a <;> simp

variable {w : Nat} {T : TAlg w}

theorem tTransformLoop_res (hT : T.Faithful) (n : Arr) (u : Bool) (buf : List Byte) : ∀ fuel size off hv scr,
    (tTransformLoop T n u buf fuel size off hv scr).res = transformLoop T.alg u buf fuel size off hv scr := by
  intro fuel
  induction fuel with
  | zero =>
    intro size off hv scr
    rw [tTransformLoop, transformLoop]
    by_cases h : T.alg.blockSize ≤ size <;> simp [h]
  | succ fuel ih =>
    intro size off hv scr
    rw [tTransformLoop, transformLoop]
    by_cases h : T.alg.blockSize ≤ size
    · simp only [Tr.bind_res, tBranch_res, Res.ok_bind, h, decide_true, if_true, hT n u hv buf off scr]
      refine Res.bind_congr fun x => ?_
      obtain ⟨hv, off, scr⟩ := x
      exact ih _ _ _ _
    · simp [h]

theorem tTransform_res (hT : T.Faithful) (n : Arr) (u : Bool) (scr : Scr w) (c : Option (Ctx w)) (b : Option (List Byte)) (size : Nat) :
    (tTransform T n u scr c b size).res = transform T.alg u scr c b size := by
  unfold tTransform transform
  cases c with
  | none => cases b <;> simp
  | some c =>
    cases b with
    | none => simp
    | some b =>
      by_cases h : ssizeMax < size
      · simp [h]
      · simp only [Tr.bind_res, tNull_res, tBranch_res, Res.ok_bind, h, decide_false, Bool.false_eq_true, if_false, tTransformLoop_res hT]
        refine Res.bind_congr fun x => ?_
        obtain ⟨hv, off, scr⟩ := x
        simp

theorem tUpdateFill_res (hT : T.Faithful) (u : Bool) (scr : Scr w) (c : Ctx w) (b : List Byte) (size : Nat) :
    (tUpdateFill T u scr c b size).res = updateFill T.alg u scr c b size := by
  unfold tUpdateFill updateFill
  by_cases h1 : 0 < c.blockOffset
  · by_cases h2 : T.alg.blockSize ≤ c.blockOffset
    · simp [h1, h2]
    · simp only [Tr.bind_res, tBranch_res, Res.ok_bind, h1, h2, decide_true, decide_false, Bool.false_eq_true, if_true, if_false, decide_eq_true_eq, tCopy_res]
      refine Res.bind_congr fun blk => ?_
      rw [Tr.ite_res]
      refine iteCongr Iff.rfl rfl ?_
      rw [Tr.bind_res, tTransform_res hT]
      refine Res.bind_congr fun x => ?_
      obtain ⟨n, c', s'⟩ := x
      cases c' with
      | none => rfl
      | some c' => simp
  · simp [h1]

theorem tUpdateBulk_res (hT : T.Faithful) (u : Bool) (scr : Scr w) (c : Ctx w) (b : List Byte) (o size : Nat) :
    (tUpdateBulk T u scr c b o size).res = updateBulk T.alg u scr c b o size := by
  unfold tUpdateBulk updateBulk
  by_cases h1 : 0 < size
  · simp only [Tr.bind_res, tBranch_res, Res.ok_bind, h1, decide_true, if_true, tPtrAt_res]
    refine Res.bind_congr fun p => ?_
    rw [tTransform_res hT]
    refine Res.bind_congr fun x => ?_
    obtain ⟨n, c', s'⟩ := x
    cases c' with
    | none => rfl
    | some c' => simp
  · simp [h1]

theorem tUpdateTail_res (c : Ctx w) (b : List Byte) (o size : Nat) : (tUpdateTail T c b o size).res = updateTail T.alg c b o size := by
  unfold tUpdateTail updateTail
  simp

theorem tCtxUpdate_res (hT : T.Faithful) (u : Bool) (scr : Scr w) (c : Option (Ctx w)) (b : Option (List Byte)) (size : Nat) :
    (tCtxUpdate T u scr c b size).res = ctxUpdate T.alg u scr c b size := by
  unfold tCtxUpdate ctxUpdate
  cases c with
  | none => cases b <;> simp
  | some c =>
    cases b with
    | none => simp
    | some b =>
      simp only [Tr.bind_res, tNull_res, tBranch_res, Res.ok_bind, decide_eq_true_eq, Tr.ite_res, Tr.pure_res]
      refine iteCongr Iff.rfl rfl (iteCongr Iff.rfl rfl ?_)
      rw [tUpdateFill_res hT]
      refine Res.bind_congr fun x => ?_
      obtain ⟨r, c, next⟩ := x
      rcases next with _ | ⟨o, size⟩
      · rfl
      · simp only [Tr.bind_res, tUpdateBulk_res hT]
        refine Res.bind_congr fun x => ?_
        obtain ⟨r, c, o, size⟩ := x
        simp only [Tr.bind_res, tBranch_res, Res.ok_bind, decide_eq_true_eq, Tr.ite_res, Tr.pure_res, tUpdateTail_res]
        rfl

theorem tStoreHash_res (A : Alg w) (u : Bool) (hv : List (BitVec w)) (h : List Byte) : (tStoreHash A u hv h).res = storeHash A u hv h := by
  unfold tStoreHash storeHash
  cases u
  · simp only [Bool.false_eq_true, if_false, Tr.bind_res]
    rw [tForLoop_res (g := fun i (s : List Byte × Nat) => do
      let v ← rd hv i
      let h ← runStore A.wordProg s.1 s.2 v
      pure (h, s.2 + A.wordSize)) (fun i s => by simp)]
    rfl
  · simp only [if_true]
    exact tRunTable_res (fun r s => by simp) _ _

theorem tCtxFinalize_res (hT : T.Faithful) (u : Bool) (scr : Scr w) (c : Option (Ctx w)) (h : Option (List Byte)) (size : Nat) :
    (tCtxFinalize T u scr c h size).res = ctxFinalize T.alg u scr c h size := by
  unfold tCtxFinalize ctxFinalize
  cases c with
  | none => cases h <;> simp
  | some c =>
    cases h with
    | none => simp
    | some h =>
      simp only [Tr.bind_res, tNull_res, tBranch_res, Res.ok_bind, decide_eq_true_eq, Tr.ite_res, Tr.pure_res, tSet_res, tWr_res, tRunStore_res]
      refine iteCongr Iff.rfl rfl (iteCongr Iff.rfl rfl ?_)
      refine Res.bind_congr fun blk => Res.bind_congr fun blk => Res.bind_congr fun blk => ?_
      rw [tTransform_res hT]
      refine Res.bind_congr fun x => ?_
      obtain ⟨n, c', s'⟩ := x
      cases c' with
      | none => rfl
      | some c' => simp [tStoreHash_res]

@[simp] theorem tMemFree_res (p : Nat) (s : St w) : (tMemFree p s).res = memFree p s := rfl
@[simp] theorem tLoadBytes_res (p : Option Nat) (s : St w) : (tLoadBytes p s).res = loadBytes p s := rfl
@[simp] theorem tStoreBytes_res (p : Option Nat) (b : List Byte) (s : St w) : (tStoreBytes p b s).res = storeBytes p b s := rfl
@[simp] theorem tAllocBytes_res (env : Env w) (n : Nat) (s : St w) : (tAllocBytes env n s).res = .ok (allocBytes env n s) := rfl
@[simp] theorem tRegion_res (s : St w) (p : Option Nat) (n : Nat) : (tRegion s p n).res = .ok (region s p n) := rfl

theorem tHInitialize_res (A : Alg w) (env : Env w) (slot : Option Nat) (s : St w) : (tHInitialize A env slot s).res = hInitialize A env slot s := by
  unfold tHInitialize hInitialize
  cases slot with
  | some p => rw [Tr.bind_res, tCtxInitialize_res]; rfl
  | none =>
    by_cases h : env.allocOk s.count = true
    · simp only [Tr.bind_res, tBranch_res, Res.ok_bind, h, decide_true, if_true, tCtxInitialize_res]
      refine Res.bind_congr fun x => ?_
      obtain ⟨r, c⟩ := x
      rcases c with _ | _ | c <;> rfl
    · simp only [Tr.bind_res, tBranch_res, Res.ok_bind, h, decide_false, Bool.false_eq_true, if_false, tCtxInitialize_res]
      rfl

theorem tHFree_res (slot : Option Nat) (s : St w) : (tHFree slot s).res = hFree slot s := by
  unfold tHFree hFree
  cases slot <;> simp

theorem tHUpdate_res (hT : T.Faithful) (u : Bool) (env : Env w) (slot : Option Nat) (b : Option (List Byte)) (size : Nat) (s : St w) :
    (tHUpdate T u env slot b size s).res = hUpdate T.alg u env slot b size s := by
  unfold tHUpdate hUpdate
  cases slot with
  | none => rw [Tr.bind_res, tCtxUpdate_res hT]; rfl
  | some p =>
    rw [Tr.bind_res, Res.ok_bind]
    dsimp only
    rcases getKey p s.live with _ | c | b
    · rfl
    · simp only [Tr.bind_res, tCtxUpdate_res hT]
      refine Res.bind_congr fun x => ?_
      obtain ⟨r, c'⟩ := x
      cases c' <;> rfl
    · rfl

theorem tHFinalize_res (hT : T.Faithful) (u : Bool) (env : Env w) (slot : Option Nat) (b : Option (List Byte)) (size : Nat) (s : St w) :
    (tHFinalize T u env slot b size s).res = hFinalize T.alg u env slot b size s := by
  unfold tHFinalize hFinalize
  cases slot with
  | none => rw [Tr.bind_res, tCtxFinalize_res hT]; rfl
  | some p =>
    rw [Tr.bind_res, Res.ok_bind]
    dsimp only
    rcases getKey p s.live with _ | c | b
    · rfl
    · simp only [Tr.bind_res, tCtxFinalize_res hT]
      refine Res.bind_congr fun x => ?_
      obtain ⟨r, c', h⟩ := x
      cases c' <;> rfl
    · rfl

theorem tApiInitialize_res (A : Alg w) (env : Env w) (c : Option (Option Nat)) (s : St w) : (tApiInitialize A env c s).res = apiInitialize A env c s := by
  unfold tApiInitialize apiInitialize
  cases c with
  | none => rw [Tr.bind_res, tCtxInitialize_res]; rfl
  | some slot => rw [Tr.bind_res, tHInitialize_res]; rfl

theorem tApiFree_res (c : Option (Option Nat)) (s : St w) : (tApiFree c s).res = apiFree c s := by
  unfold tApiFree apiFree
  cases c with
  | none => rfl
  | some slot => simp only [Tr.bind_res, tNull_res, Res.ok_bind, tHFree_res]; rfl

theorem tStep_res (hT : T.Faithful) (u : Bool) (env : Env w) (call : ApiCall) (scr : Scr w) (slot : Option Nat) (s : St w) :
    (tStep T u env call scr slot s).res = step T.alg u env call scr slot s := by
  unfold tStep step
  cases call with
  | init =>
    rw [Tr.bind_res, tApiInitialize_res]
    refine Res.bind_congr fun x => ?_
    obtain ⟨r, c, s⟩ := x
    cases c <;> rfl
  | initNull => rw [Tr.bind_res, tApiInitialize_res]; rfl
  | free =>
    rw [Tr.bind_res, tApiFree_res]
    refine Res.bind_congr fun x => ?_
    obtain ⟨r, c, s⟩ := x
    cases c <;> rfl
  | freeNull => rw [Tr.bind_res, tApiFree_res]; rfl
  | update buf size => rw [Tr.bind_res, tHUpdate_res hT]; rfl
  | finalize out size => rw [Tr.bind_res, tHFinalize_res hT]; rfl

theorem tRun_res (hT : T.Faithful) (u : Bool) (env : Env w) : ∀ calls slot s, (tRun T u env calls slot s).res = run T.alg u env calls slot s
  | [], _, _ => rfl
  | (c, scr) :: cs, slot, s => by
    rw [tRun, run, Tr.bind_res, tStep_res hT]
    refine Res.bind_congr fun x => ?_
    obtain ⟨r, slot, s⟩ := x
    dsimp only
    rw [Tr.bind_res, tRun_res hT u env cs]
    rfl

theorem tCalculateError_res (c : Option Nat) (s : St w) : (tCalculateError c s).res = calculateError c s := by
  unfold tCalculateError calculateError
  cases c with
  | none => rfl
  | some p => simp only [Tr.bind_res, tNull_res, Res.ok_bind, tHFree_res]; rfl

theorem tCalculate_res (hT : T.Faithful) (u : Bool) (env : Env w) (buffer : Option Nat) (size : Nat) (hash : Option Nat) (hashSize : Nat) (s : St w) :
    (tCalculate T u env buffer size hash hashSize s).res = calculate T.alg u env buffer size hash hashSize s := by
  unfold tCalculate calculate
  rw [Tr.bind_res, tHInitialize_res]
  refine Res.bind_congr fun x => ?_
  obtain ⟨r, c, s⟩ := x
  simp only [Tr.bind_res, tBranch_res, Res.ok_bind, decide_eq_true_eq, Tr.ite_res, tCalculateError_res, tRegion_res, tHUpdate_res hT]
  refine iteCongr Iff.rfl rfl (Res.bind_congr fun x => ?_)
  obtain ⟨r, s⟩ := x
  simp only [Tr.bind_res, tBranch_res, Res.ok_bind, decide_eq_true_eq, Tr.ite_res, tCalculateError_res, tRegion_res, tHFinalize_res hT]
  refine iteCongr Iff.rfl rfl (Res.bind_congr fun x => ?_)
  obtain ⟨r, h, s⟩ := x
  simp only [Tr.bind_res, tBranch_res, Res.ok_bind, decide_eq_true_eq, Tr.ite_res, tCalculateError_res, tHFree_res]
  refine iteCongr Iff.rfl rfl (Res.bind_congr fun x => ?_)
  obtain ⟨r, c, s⟩ := x
  simp only [Tr.bind_res, tBranch_res, Res.ok_bind, decide_eq_true_eq, Tr.ite_res, tCalculateError_res, Tr.pure_res]
  rfl

theorem tHmacKey_res (hT : T.Faithful) (u : Bool) (env : Env w) (key : Option Nat) (n : Nat) (l : Loc) (s : St w) :
    (tHmacKey T u env key n l s).res = hmacKey T.alg u env key n l s := by
  unfold tHmacKey hmacKey
  rw [Tr.bind_res, tAllocBytes_res, Res.ok_bind]
  generalize allocBytes env T.alg.hmacBlockSize s = x
  obtain ⟨p, s⟩ := x
  cases p with
  | none => rfl
  | some p =>
    simp only [Tr.bind_res, tBranch_res, Res.ok_bind, decide_eq_true_eq, Tr.ite_res, tRegion_res]
    refine iteCongr Iff.rfl ?_ ?_
    · cases region s key n with
      | none => rfl
      | some k => simp
    · rw [tHInitialize_res]
      refine Res.bind_congr fun x => ?_
      obtain ⟨r, c, s⟩ := x
      simp only [Tr.bind_res, tBranch_res, Res.ok_bind, decide_eq_true_eq, Tr.ite_res, tRegion_res, tHUpdate_res hT]
      refine iteCongr Iff.rfl rfl (Res.bind_congr fun x => ?_)
      obtain ⟨r, s⟩ := x
      simp only [Tr.bind_res, tBranch_res, Res.ok_bind, decide_eq_true_eq, Tr.ite_res, tHFinalize_res hT]
      refine iteCongr Iff.rfl rfl (Res.bind_congr fun x => ?_)
      obtain ⟨r, h, s⟩ := x
      cases h with
      | none => rfl
      | some h =>
        simp only [Tr.bind_res, tBranch_res, Res.ok_bind, decide_eq_true_eq, Tr.ite_res, tHFree_res]
        refine iteCongr Iff.rfl rfl (Res.bind_congr fun x => ?_)
        obtain ⟨r, c, s⟩ := x
        by_cases hlt : T.alg.hashSize < T.alg.hmacBlockSize <;> simp [hlt]

theorem tXorPads_res (n : Nat) (kd i o : List Byte) : (tXorPads n kd i o).res = xorPads n kd i o := by
  unfold tXorPads xorPads
  exact tForLoop_res (fun i s => by simp) _ _ _

theorem tHmacPads_res (A : Alg w) (env : Env w) (l : Loc) (s : St w) : (tHmacPads A env l s).res = hmacPads A env l s := by
  unfold tHmacPads hmacPads
  rw [Tr.bind_res, tAllocBytes_res, Res.ok_bind]
  generalize allocBytes env A.hmacBlockSize s = x
  obtain ⟨p, s⟩ := x
  cases p with
  | none => rfl
  | some p =>
    simp only [Tr.bind_res, tLoadBytes_res, tSet_res, tStoreBytes_res, tAllocBytes_res, Res.ok_bind]
    refine Res.bind_congr fun d => Res.bind_congr fun d => Res.bind_congr fun s => ?_
    generalize allocBytes env A.hmacBlockSize s = x
    obtain ⟨p, s⟩ := x
    cases p with
    | none => rfl
    | some p =>
      simp only [Tr.bind_res, tLoadBytes_res, tSet_res, tStoreBytes_res, tXorPads_res]
      rfl

theorem tHmacPass_res (hT : T.Faithful) (u : Bool) (env : Env w) (padding buffer : Option Nat) (size : Nat) (hmac : Option Nat) (hmacSize : Nat) (l : Loc) (s : St w) :
    (tHmacPass T u env padding buffer size hmac hmacSize l s).res = hmacPass T.alg u env padding buffer size hmac hmacSize l s := by
  unfold tHmacPass hmacPass
  rw [Tr.bind_res, tHInitialize_res]
  refine Res.bind_congr fun x => ?_
  obtain ⟨r, c, s⟩ := x
  simp only [Tr.bind_res, tBranch_res, Res.ok_bind, decide_eq_true_eq, Tr.ite_res, tLoadBytes_res, tHUpdate_res hT]
  refine iteCongr Iff.rfl rfl (Res.bind_congr fun d => Res.bind_congr fun x => ?_)
  obtain ⟨r, s⟩ := x
  simp only [Tr.bind_res, tBranch_res, Res.ok_bind, decide_eq_true_eq, Tr.ite_res, tRegion_res, tHUpdate_res hT]
  refine iteCongr Iff.rfl rfl (Res.bind_congr fun x => ?_)
  obtain ⟨r, s⟩ := x
  simp only [Tr.bind_res, tBranch_res, Res.ok_bind, decide_eq_true_eq, Tr.ite_res, tRegion_res, tHFinalize_res hT]
  refine iteCongr Iff.rfl rfl (Res.bind_congr fun x => ?_)
  obtain ⟨r, h, s⟩ := x
  simp only [Tr.bind_res, tBranch_res, Res.ok_bind, decide_eq_true_eq, Tr.ite_res, tHFree_res]
  refine iteCongr Iff.rfl rfl (Res.bind_congr fun x => ?_)
  obtain ⟨r, c, s⟩ := x
  simp only [Tr.bind_res, tBranch_res, Res.ok_bind, decide_eq_true_eq, Tr.ite_res, Tr.pure_res]
  rfl

theorem tWipeFree_res (A : Alg w) (n : Arr) (p : Option Nat) (s : St w) : (tWipeFree A n p s).res = wipeFree A p s := by
  unfold tWipeFree wipeFree
  simp only [Tr.bind_res, tLoadBytes_res, tSet_res, tStoreBytes_res]
  cases p <;> rfl

theorem tWipeFreeOpt_res (A : Alg w) (n : Arr) (p : Option Nat) (s : St w) : (tWipeFreeOpt A n p s).res = wipeFreeOpt A p s := by
  unfold tWipeFreeOpt wipeFreeOpt
  cases p with
  | none => rfl
  | some p => simp only [Tr.bind_res, tNull_res, Res.ok_bind, tWipeFree_res]

theorem tFreeOpt_res (p : Option Nat) (s : St w) : (tFreeOpt p s).res = freeOpt p s := by
  unfold tFreeOpt freeOpt
  cases p with
  | none => rfl
  | some p => simp only [Tr.bind_res, tNull_res, Res.ok_bind, tHFree_res]; rfl

theorem tHmacError_res (A : Alg w) (l : Loc) (s : St w) : (tHmacError A l s).res = hmacError A l s := by
  unfold tHmacError hmacError
  simp only [Tr.bind_res, tFreeOpt_res, tWipeFreeOpt_res, Tr.pure_res]
  rfl

theorem tHmacRest_res (hT : T.Faithful) (u : Bool) (env : Env w) (buffer : Option Nat) (size : Nat) (hmac : Option Nat) (hmacSize : Nat) (l : Loc) (s : St w) :
    (tHmacRest T u env buffer size hmac hmacSize l s).res = hmacRest T.alg u env buffer size hmac hmacSize l s := by
  unfold tHmacRest hmacRest
  rw [Tr.bind_res, tHmacPads_res]
  refine Res.bind_congr fun x => ?_
  obtain ⟨ok, l, s⟩ := x
  cases ok
  · simp [tHmacError_res]
  simp only [Tr.bind_res, tBranch_res, Res.ok_bind, Bool.true_eq_false, decide_false, Bool.false_eq_true, if_false, Bool.not_true, tHmacPass_res hT]
  refine Res.bind_congr fun x => ?_
  obtain ⟨ok, l, s⟩ := x
  cases ok
  · simp [tHmacError_res]
  simp only [Tr.bind_res, tBranch_res, Res.ok_bind, Bool.true_eq_false, decide_false, Bool.false_eq_true, if_false, Bool.not_true, tHmacPass_res hT]
  refine Res.bind_congr fun x => ?_
  obtain ⟨ok, l, s⟩ := x
  cases ok
  · simp [tHmacError_res]
  simp only [Tr.bind_res, tBranch_res, Res.ok_bind, Bool.true_eq_false, decide_false, Bool.false_eq_true, if_false, Bool.not_true, tWipeFree_res]
  rfl

theorem tCalculateHmac_res (hT : T.Faithful) (u : Bool) (env : Env w) (kh : List Byte) (key : Option Nat) (keySize : Nat) (buffer : Option Nat) (size : Nat)
    (hmac : Option Nat) (hmacSize : Nat) (s : St w) :
    (tCalculateHmac T u env kh key keySize buffer size hmac hmacSize s).res = calculateHmac T.alg u env kh key keySize buffer size hmac hmacSize s := by
  unfold tCalculateHmac calculateHmac
  cases key with
  | none => rfl
  | some k =>
    simp only [Tr.bind_res, tNull_res, tBranch_res, Res.ok_bind, decide_eq_true_eq, Tr.ite_res, Tr.pure_res, tHmacKey_res hT]
    refine iteCongr Iff.rfl rfl (iteCongr Iff.rfl rfl (Res.bind_congr fun x => ?_))
    obtain ⟨ok, l, s⟩ := x
    cases ok
    · simp [tHmacError_res]
    · simp [tHmacRest_res hT]

end Model

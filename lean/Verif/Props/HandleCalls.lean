import Verif.Proofs.HandleCalls
import Verif.Proofs.Messages
import Verif.Props.SumHandle
/-! C89: what the calls of a sum handle return, and which settings they change. -/

namespace Props

open Model Spec

/-- C89. Every call that returns, in any memory and with any outcome of its allocations, of the file and of the library. -/
theorem C89_call (T : Tool) (op : HandleOp) (slot : Option Handle) (W : World) (r : Int) (slot' : Option Handle) (W' : World) (e : handleStep T op slot W = .ok (r, slot', W')) :
    HandleCall 64 op (slot.map settings) r (slot'.map settings) := handleStep_settings op slot W _ e

/-- C89. As long as the handle is not freed, a request to stop is kept, a selected digest stays selected and the handle stays; whatever calls are made. -/
theorem C89_kept (T : Tool) (ops : List HandleOp) (hf : ∀ op ∈ ops, ∀ c, op ≠ .free c) (h : Handle) (W : World) (rs : List Int) (slot' : Option Handle) (W' : World)
    (e : handleRun T ops (some h) W = .ok (rs, slot', W')) :
    ∃ h', slot' = some h' ∧ (h.abort = true → h'.abort = true) ∧ ∀ k, h.calculate k = true → h'.calculate k = true := by
  induction ops generalizing h W rs with
  | nil => cases e; exact ⟨h, rfl, id, fun _ => id⟩
  | cons op ops ih =>
    simp only [handleRun] at e
    obtain ⟨⟨r, q, V⟩, e1, e⟩ := Res.bind_eq_ok e
    obtain ⟨⟨rs', q', V'⟩, e2, e⟩ := Res.bind_eq_ok e
    cases e
    have key : ∃ g, q = some g ∧ (h.abort = true → g.abort = true) ∧ ∀ k, h.calculate k = true → g.calculate k = true := by
      have hc := C89_call T op (some h) W r q V e1
      have hn := hf op List.mem_cons_self
      have back : ∀ y, q.map settings = some y → (h.abort = true → y.stopping = true) → (∀ k, h.calculate k = true → y.digests k = true) →
          ∃ g, q = some g ∧ (h.abort = true → g.abort = true) ∧ ∀ k, h.calculate k = true → g.calculate k = true := by
        rintro y hy h1 h2
        cases q with
        | none => cases hy
        | some g => cases hy; exact ⟨g, rfl, h1, h2⟩
      cases op with
      | init => exact back _ hc.2 id fun _ => id
      | free c => exact absurd rfl (hn c)
      | abort => exact back _ hc.2 (fun _ => rfl) fun _ => id
      | «open» ok => exact back _ hc.2 id fun _ => id
      | close ok => exact back _ hc.2 id fun _ => id
      | process inp stop =>
        obtain ⟨-, y, hy, h1, -, -, h3, -⟩ := hc
        exact back y hy (fun ha => (h3 ha).1) fun k hk => by rw [h1]; exact hk
      | digests mc a b s =>
        obtain ⟨-, -, f, hy, h1, -⟩ := hc
        exact back _ hy id h1
      | bufferSize v dp s =>
        obtain ⟨-, h1, h2⟩ := hc
        by_cases hr : r = 1
        · obtain ⟨n, -, hy⟩ := h2 hr
          exact back _ hy id fun _ => id
        · exact back _ (h1 hr) id fun _ => id
      | print => exact back _ hc.2 id fun _ => id
    obtain ⟨g, rfl, ha, hd⟩ := key
    obtain ⟨h', rfl, ha', hd'⟩ := ih (fun op ho => hf op (List.mem_cons_of_mem _ ho)) g V rs' e2
    exact ⟨h', rfl, fun x => ha' (ha x), fun k x => hd' k (hd k x)⟩

/-- C89. After a request to stop each processing reads at most once, whatever calls were made in between (other than freeing the handle). -/
theorem C89_stopping (T : Tool) (ops : List HandleOp) (hf : ∀ op ∈ ops, ∀ c, op ≠ .free c) (h : Handle) (W : World) (rs : List Int) (slot' : Option Handle) (W' : World)
    (e : handleRun T (.abort :: ops) (some h) W = .ok (rs, slot', W')) (inp : Input) (stop : Nat → Bool) (r : Int) (slot2 : Option Handle) (W2 : World)
    (e2 : handleStep T (.process inp stop) slot' W' = .ok (r, slot2, W2)) :
    ∃ h' h2, slot' = some h' ∧ slot2 = some h2 ∧ h2.readCount ≤ h'.readCount + 1 ∧ h2.abort = true := by
  simp only [handleRun, handleStep, Res.ok_bind] at e
  obtain ⟨⟨rs', q', V'⟩, e1, e⟩ := Res.bind_eq_ok e
  cases e
  obtain ⟨h', rfl, ha, -⟩ := C89_kept T ops hf _ W rs' q' V' e1
  obtain ⟨-, y, hy, -, -, -, h3, -⟩ := C89_call T _ (some h') V' r slot2 W2 e2
  cases slot2 with
  | none => cases hy
  | some h2 =>
    cases hy
    exact ⟨h', h2, rfl, rfl, (h3 (ha rfl)).2, (h3 (ha rfl)).1⟩

/-- A handle that is asked to stop, given a second digest and a buffer of 16 bytes, and then processes a file. -/
def stopOps : List HandleOp := [.digests true true true (codes "sha1"), .open true, .bufferSize false (some 46) (codes "16"), .close true, .init]

example : ∃ rs h1 W1 r h2 W2, handleRun tool0 (.abort :: stopOps) (some handle0) world1 = .ok (rs, some h1, W1) ∧ handleStep tool0 (.process input0 fun _ => false) (some h1) W1 = .ok (r, some h2, W2) ∧
    h2.readCount ≤ h1.readCount + 1 ∧ h1.calculate .md5 = true := by
  obtain ⟨base, blk, hI, hz⟩ := handle0_reached.inv tool0_ok
  obtain ⟨⟨rs, slot, W⟩, e⟩ := handleRun_total tool0_ok (.abort :: stopOps ++ [.process input0 fun _ => false]) blk (some handle0) world1 (by
    intro op hop
    simp only [List.mem_append, List.mem_cons, stopOps, List.not_mem_nil, or_false] at hop
    rcases hop with (rfl | rfl | rfl | rfl | rfl | rfl) | rfl <;> simp [HandleOp.Valid]) hI (fun h hh => by cases hh; exact hz)
  rw [handleRun_append] at e
  obtain ⟨⟨rs1, q1, W1⟩, e1, e⟩ := Res.bind_eq_ok e
  obtain ⟨⟨rs2, q2, W2⟩, e2, -⟩ := Res.bind_eq_ok e
  obtain ⟨⟨r, q3, W3⟩, e3, -⟩ := Res.bind_eq_ok e2
  have hf : ∀ op ∈ stopOps, ∀ c, op ≠ HandleOp.free c := by simp [stopOps]
  obtain ⟨h', h2, rfl, rfl, h3, -⟩ := C89_stopping tool0 stopOps hf handle0 world1 rs1 q1 W1 e1 input0 (fun _ => false) r q3 W3 e3
  obtain ⟨h4, h5, -, h6⟩ := C89_kept tool0 (.abort :: stopOps) (by simpa using hf) handle0 world1 rs1 _ W1 e1
  cases h5
  exact ⟨rs1, h', W1, r, h2, W3, e1, e3, h3, h6 .md5 rfl⟩

example (r : Int) (slot : Option Handle) (W : World) (e : handleStep tool0 (.close false) (some handle0) world1 = .ok (r, slot, W)) : r = -1 := (C89_call tool0 _ _ _ r slot W e).1

end Props

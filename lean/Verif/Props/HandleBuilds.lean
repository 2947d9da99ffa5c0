import Verif.Proofs.HandleBuilds
import Verif.Props.HandleCalls
import Verif.Props.HostBackend
/-! C89 in every build of the tool and on hosts of every width. -/

namespace Props

open Model Spec

/-- C89, in every build and on every host: built in or with any crypto library, whatever the library does. -/
theorem C89_build_call (hb : Nat) (ch : Kind → Choice) (L : Kind → Library) (T : Tool) (op : HandleOp) (slot : Option Handle) (W : WorldOf (MixedMem L)) (r : Int) (slot' : Option Handle) (W' : WorldOf (MixedMem L))
    (e : Builds.handleStep T (.mixedHost hb ch L T) op slot W = .ok (r, slot', W')) : HandleCall hb op (slot.map settings) r (slot'.map settings) :=
  Builds.handleStep_settings (mixedHost_freed hb ch L T) op slot W _ e

/-- C89, in every build and on every host. As long as the handle is not freed, a request to stop is kept, a selected digest stays selected and the handle stays; whatever calls are made. -/
theorem C89_build_kept (hb : Nat) (ch : Kind → Choice) (L : Kind → Library) (T : Tool) (ops : List HandleOp) (hf : ∀ op ∈ ops, ∀ c, op ≠ .free c) (h : Handle) (W : WorldOf (MixedMem L)) (rs : List Int) (slot' : Option Handle) (W' : WorldOf (MixedMem L))
    (e : Builds.handleRun T (.mixedHost hb ch L T) ops (some h) W = .ok (rs, slot', W')) :
    ∃ h', slot' = some h' ∧ (h.abort = true → h'.abort = true) ∧ ∀ k, h.calculate k = true → h'.calculate k = true := by
  induction ops generalizing h W rs with
  | nil => cases e; exact ⟨h, rfl, id, fun _ => id⟩
  | cons op ops ih =>
    simp only [Builds.handleRun] at e
    obtain ⟨⟨r, q, V⟩, e1, e⟩ := Res.bind_eq_ok e
    obtain ⟨⟨rs', q', V'⟩, e2, e⟩ := Res.bind_eq_ok e
    cases e
    have key : ∃ g, q = some g ∧ (h.abort = true → g.abort = true) ∧ ∀ k, h.calculate k = true → g.calculate k = true := by
      have hc := C89_build_call hb ch L T op (some h) W r q V e1
      have hn := hf op List.mem_cons_self
      have back : ∀ y, q.map settings = some y → (h.abort = true → y.stopping = true) → (∀ k, h.calculate k = true → y.digests k = true) →
          ∃ g, q = some g ∧ (h.abort = true → g.abort = true) ∧ ∀ k, h.calculate k = true → g.calculate k = true := by
        rintro y hy h1 h2
        cases q with
        | none => cases hy
        | some g => cases hy; exact ⟨g, rfl, h1, h2⟩
      cases op with
      | init => exact back _ hc.2 id fun _ => id
      | free c => exact absurd rfl (hn c)
      | abort => exact back _ hc.2 (fun _ => rfl) fun _ => id
      | «open» ok => exact back _ hc.2 id fun _ => id
      | close ok => exact back _ hc.2 id fun _ => id
      | process inp stop =>
        obtain ⟨-, y, hy, h1, -, -, h3, -⟩ := hc
        exact back y hy (fun ha => (h3 ha).1) fun k hk => by rw [h1]; exact hk
      | digests mc a b s =>
        obtain ⟨-, -, f, hy, h1, -⟩ := hc
        exact back _ hy id h1
      | bufferSize v dp s =>
        obtain ⟨-, h1, h2⟩ := hc
        by_cases hr : r = 1
        · obtain ⟨n, -, hy⟩ := h2 hr
          exact back _ hy id fun _ => id
        · exact back _ (h1 hr) id fun _ => id
      | print => exact back _ hc.2 id fun _ => id
    obtain ⟨g, rfl, ha, hd⟩ := key
    obtain ⟨h', rfl, ha', hd'⟩ := ih (fun op ho => hf op (List.mem_cons_of_mem _ ho)) g V rs' e2
    exact ⟨h', rfl, fun x => ha' (ha x), fun k x => hd' k (hd k x)⟩

/-- C89, in every build and on every host. After a request to stop each processing reads at most once, whatever calls were made in between (other than freeing the handle). -/
theorem C89_build_stopping (hb : Nat) (ch : Kind → Choice) (L : Kind → Library) (T : Tool) (ops : List HandleOp) (hf : ∀ op ∈ ops, ∀ c, op ≠ .free c) (h : Handle) (W : WorldOf (MixedMem L)) (rs : List Int) (slot' : Option Handle) (W' : WorldOf (MixedMem L))
    (e : Builds.handleRun T (.mixedHost hb ch L T) (.abort :: ops) (some h) W = .ok (rs, slot', W')) (inp : Input) (stop : Nat → Bool) (r : Int) (slot2 : Option Handle) (W2 : WorldOf (MixedMem L))
    (e2 : Builds.handleStep T (.mixedHost hb ch L T) (.process inp stop) slot' W' = .ok (r, slot2, W2)) :
    ∃ h' h2, slot' = some h' ∧ slot2 = some h2 ∧ h2.readCount ≤ h'.readCount + 1 ∧ h2.abort = true := by
  simp only [Builds.handleRun, Builds.handleStep, Res.ok_bind] at e
  obtain ⟨⟨rs', q', V'⟩, e1, e⟩ := Res.bind_eq_ok e
  cases e
  obtain ⟨h', rfl, ha, -⟩ := C89_build_kept hb ch L T ops hf _ W rs' q' V' e1
  obtain ⟨-, y, hy, -, -, -, h3, -⟩ := C89_build_call hb ch L T _ (some h') V' r slot2 W2 e2
  cases slot2 with
  | none => cases hy
  | some h2 =>
    cases hy
    exact ⟨h', h2, rfl, rfl, (h3 (ha rfl)).2, (h3 (ha rfl)).1⟩


end Props

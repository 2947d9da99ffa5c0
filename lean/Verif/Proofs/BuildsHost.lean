import Verif.Proofs.BuildsMixed
import Verif.Proofs.Host
/-! The built-in contexts on hosts of other widths obey the law. -/

namespace Model.Builds

open Model
open Spec (Kind IterHash ApiCall Reply ApiState)

/-- A law for calls that are the same. -/
theorem Law.transport {M M' : Type} {C : Contexts M} {C' : Contexts M'} {T : Tool} {Good : Prop} {limit : Nat} {Rel : (Kind → Option Nat) → M → Msgs → Prop} {f : M' → M} {g : M → M'}
    (hC : Law C T Good limit Rel) (hw : 17 ≤ C'.bits ∧ C'.bits ≤ 64) (hm : C'.sizeMax ≤ C.sizeMax) (hg : ∀ {ctx m b}, Rel ctx m b → Rel ctx (f (g m)) b) (hatt : ∀ m, f (C'.attempt m) = C.attempt (f m))
    (hcall : ∀ {ctx m b}, Rel ctx (f m) b → ∀ k c n r slot m', (∀ buffer size, c = .update buffer size → size ≤ C'.sizeMax ∧ ∀ b, buffer = some b → size ≤ b.length) → (∀ o size, c = .finalize o size → size = k.hashSize) →
      C.call k c n (ctx k) (f m) = .ok (r, slot, m') → C'.call k c n (ctx k) m = .ok (r, slot, g m')) : Law C' T Good limit (fun ctx m b => Rel ctx (f m) b) where
  width := hw
  null h := hC.null h
  attempt h := by rw [hatt]; exact hC.attempt h
  init h k n := by
    obtain ⟨r, slot, m', e, hr, hgood⟩ := hC.init h k n
    refine ⟨r, slot, g m', hcall h k _ n _ _ _ (by simp) (by simp) e, ?_, hgood⟩
    rcases hr with ⟨h1, h2, h3⟩ | ⟨h1, h3⟩
    · exact .inl ⟨h1, h2, hg h3⟩
    · exact .inr ⟨h1, hg h3⟩
  update h k n x buffer size hb h0 hs hl := by
    obtain ⟨r, slot, m', y, e, hr, h1, h2⟩ := hC.update h k n x buffer size hb h0 (by omega) hl
    exact ⟨r, slot, g m', y, hcall h k _ n _ _ _ (by rintro _ _ ⟨⟩; exact ⟨hs, by rintro _ ⟨⟩; exact hl⟩) (by simp) e, hg hr, h1, h2⟩
  finalize h k n x o hb ho := by
    obtain ⟨r, slot, m', out, e, hr, h1, h2, h3, h4⟩ := hC.finalize h k n x o hb ho
    exact ⟨r, slot, g m', out, hcall h k _ n _ _ _ (by simp) (by rintro _ _ ⟨⟩; rfl) e, hg hr, h1, h2, h3, h4⟩
  free h k n x hb := by
    obtain ⟨r, slot, m', e, hc, hr⟩ := hC.free h k n x hb
    exact ⟨r, slot, g m', hcall h k _ n _ _ _ (by simp) (by simp) e, hc, hg hr⟩

/-- No algorithm is taken from a library. -/
def allBuiltin : Kind → Choice := fun _ => .builtin

def noLibrary : Kind → Library := fun _ => ⟨Unit, fun _ => none, fun _ s _ => (false, s), fun _ s o => (false, s, o), fun _ => false, fun _ => false⟩

/-- The relation for the built-in contexts. -/
def BuiltinRel (base : Nat → List Nat) (ctx : Kind → Option Nat) (m : Mem) (b : Msgs) : Prop :=
  MixedRel allBuiltin noLibrary (fun _ _ _ => True) base (fun _ => []) ctx ⟨m, 0, fun _ => []⟩ b

/-- A call on a host of another width does the same. -/
theorem host_call {hb : Nat} (h1 : 16 ≤ hb) (h2 : hb ≤ 64) {T : Tool} (hT : T.Ok) {base : Nat → List Nat} {ctx : Kind → Option Nat} {m : Mem} {b : Msgs} (hrel : BuiltinRel base ctx m b) (k : Kind) (c : ApiCall) (n : Nat)
    (hu : ∀ buffer size, c = .update buffer size → size ≤ hostMax hb ∧ ∀ b, buffer = some b → size ≤ b.length) (hf : ∀ o size, c = .finalize o size → size ≤ hostMax hb) :
    (Contexts.host hb T).call k c n (ctx k) m = (Contexts.builtin T).call k c n (ctx k) m := by
  have hstep : hostStep hb (algOf k) (T.unrolled k) { T.envs k.width with allocOk := T.alloc } c (T.scr k n) (ctx k) (m.view k.width) =
      step (algOf k) (T.unrolled k) { T.envs k.width with allocOk := T.alloc } c (T.scr k n) (ctx k) (m.view k.width) := by
    obtain ⟨a, ha, -⟩ := hrel.builtin
    have hv := ha.1.1 k
    rw [show restrict allBuiltin ctx k = ctx k from if_pos rfl] at hv
    obtain ⟨enc, L⟩ := lawful k
    have hscr := scrOk_of_junk (hT.scr k n)
    cases c with
    | init => rfl
    | initNull => rfl
    | free => rfl
    | freeNull => rfl
    | update buffer size =>
      obtain ⟨hs, hl⟩ := hu buffer size rfl
      simp only [hostStep, step]
      revert hv
      cases ctx k with
      | none => exact fun _ => rfl
      | some p =>
        cases a k with
        | none => exact False.elim
        | some x =>
          rintro ⟨-, hh0, c, hl', hr⟩
          rw [hostHUpdate_eq h1 h2 L hh0 _ _ hscr _ p c hl' hr buffer size hs hl]
    | finalize o size =>
      simp only [hostStep, step]
      revert hv
      cases ctx k with
      | none => exact fun _ => rfl
      | some p =>
        cases a k with
        | none => exact False.elim
        | some x =>
          rintro ⟨-, hh0, c, hl', hr⟩
          rw [hostHFinalize_eq h1 h2 L hh0 _ _ hscr _ p c hl' hr o size (hf o size rfl)]
  simp only [Contexts.host, Contexts.builtin, hstep]

/-- The built-in contexts obey the law on every host. -/
theorem host_law {hb : Nat} (h1 : 17 ≤ hb) (h2 : hb ≤ 64) {T : Tool} (hT : T.Ok) (base : Nat → List Nat) : Law (Contexts.host hb T) T (∀ k, allBuiltin k ≠ .builtin → Reliable (noLibrary k)) (hostMax hb) (BuiltinRel base) := by
  obtain ⟨p1, p2, p3⟩ := hostPow (by omega : 16 ≤ hb) h2
  have hl := mixed_law (ch := allBuiltin) (L := noLibrary) (Rep := fun _ _ _ => True) (base := base) (live0 := fun _ => []) hT (fun _ h => absurd rfl h) (fun _ h => absurd rfl h) (hostMax hb) (fun _ _ h => by cases h)
  exact hl.transport (C' := Contexts.host hb T) (f := fun m => ⟨m, 0, fun _ => []⟩) (g := MixedMem.mem) ⟨h1, h2⟩ (by
      show hostMax hb ≤ hostMax 64
      unfold hostMax at *
      omega) (fun {ctx m b} h => ⟨h.builtin, (fun k B hk => by cases hk), fun _ _ => rfl⟩) (fun _ => rfl) (fun {ctx m b} h k c n r slot m' hu hf e => by
      have e' : (Contexts.builtin T).call k c n (ctx k) m = .ok (r, slot, m'.mem) := by
        simp only [Contexts.mixed, allBuiltin] at e
        obtain ⟨⟨r1, s1, m1⟩, e1, e2⟩ := bind_inv e
        cases e2
        exact e1
      rw [← e']
      refine host_call (by omega) h2 hT h k c n hu fun o size hc => ?_
      rw [hf o size hc]
      have : k.hashSize ≤ 64 := by cases k <;> decide
      omega)

/-- Before any context exists. -/
theorem host_start (m : Mem) : BuiltinRel (fun w => (m.live w).map (·.1)) (fun _ => none) m (fun _ => none) := mixed_start (ch := allBuiltin) (L := noLibrary) ⟨m, 0, fun _ => []⟩

/-- After all contexts are released. -/
theorem host_end {base : Nat → List Nat} {m : Mem} (h : BuiltinRel base (fun _ => none) m (fun _ => none)) (w : Nat) : ((m.live w).map (·.1)).Perm (base w) := (mixed_end h).1 w

end Model.Builds

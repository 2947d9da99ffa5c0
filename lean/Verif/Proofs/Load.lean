import Verif.Proofs.Basic
import Verif.Model.Block
import Verif.Spec.Md5
import Verif.Spec.Sha2
/-! Breaking a block into words, and adding the result to the context, in both variants. -/

namespace Model

theorem word_slice (buf : List Byte) (off B i n : Nat) (h : i * n + n ≤ B) :
    (((buf.drop off).take B).drop (i * n)).take n = (buf.drop (off + i * n)).take n := by
  rw [List.drop_take, List.take_take, List.drop_drop, Nat.min_eq_left (by omega)]

theorem loadLoop_ok {w} {prog : List LoadStep} {ws : Nat} {buf : List Byte} {off : Nat} {vals : List (BitVec w)} {N : Nat}
    (word : Nat → BitVec w) (hN : vals.length = N) (h16 : 16 ≤ N)
    (hld : ∀ i v0, i < 16 → runLoad prog buf (off + i * ws) v0 = .ok (word i)) :
    ∃ vals', loadLoop prog ws buf off vals = .ok (off + 16 * ws, vals') ∧ vals'.length = N ∧
      ∀ i, i < 16 → vals'[i]? = some (word i) := by
  obtain ⟨⟨o, vals'⟩, e, ho, hl, hv⟩ := forLoop_inv (f := fun i (s : Nat × List (BitVec w)) => do
      let v0 ← rd s.2 i
      let v ← runLoad prog buf s.1 v0
      let vals ← wr s.2 i v
      pure (s.1 + ws, vals))
    (fun j s => s.1 = off + j * ws ∧ s.2.length = N ∧ ∀ i, i < j → s.2[i]? = some (word i))
    (lo := 0) (hi := 16) (s := (off, vals)) (by omega) ⟨by simp, hN, by omega⟩
    (by
      rintro j ⟨o, l⟩ _ hj ⟨h1, h2, h3⟩
      dsimp only at h1 h2 h3
      refine ⟨(o + ws, l.set j (word j)), ?_, ?_, ?_, ?_⟩
      · dsimp only
        rw [rd_ok (by omega), Res.ok_bind, h1, hld j _ hj, Res.ok_bind, wr_ok _ (by omega)]
        rfl
      · simp only [h1]; ring
      · simp [h2]
      · intro i hi
        dsimp only
        by_cases hij : i = j
        · subst hij; rw [List.getElem?_set_self (by omega)]
        · rw [List.getElem?_set_ne (by omega), h3 i (by omega)])
  dsimp only at ho hl hv
  exact ⟨vals', by rw [loadLoop, e, ho], hl, hv⟩

theorem loadUnrolled_ok {w} {prog : List LoadStep} {sh ws : Nat} {rows : List Nat} {buf : List Byte} {off : Nat}
    {vals : List (BitVec w)} {N : Nat}
    (word : Nat → BitVec w) (hN : vals.length = N) (h16 : 16 ≤ N) (hrows : rows = List.range 16) (hws : ws = 2 ^ sh)
    (hld : ∀ i v0, i < 16 → runLoad prog buf (off + i * ws) v0 = .ok (word i)) :
    ∃ vals', loadUnrolled prog sh rows buf off vals = .ok vals' ∧ vals'.length = N ∧
      ∀ i, i < 16 → vals'[i]? = some (word i) := by
  obtain ⟨vals', e, hl, hv⟩ := runTable_rows (f := fun i (vals : List (BitVec w)) => do
      let v0 ← rd vals i
      let v ← runLoad prog buf (off + (i <<< sh)) v0
      wr vals i v) (rows := rows) id
    (fun j l => l.length = N ∧ ∀ i, i < j → l[i]? = some (word i))
    (lo := 0) (hi := 16) (s := vals) (by omega) (by rw [hrows]; decide) ⟨hN, by omega⟩
    (by
      rintro j l _ hj ⟨h2, h3⟩
      refine ⟨l.set j (word j), ?_, ?_, ?_⟩
      · dsimp only [id]
        rw [rd_ok (by omega), Res.ok_bind, Nat.shiftLeft_eq, ← hws, hld j _ hj, Res.ok_bind, wr_ok _ (by omega)]
      · simp [h2]
      · intro i hi
        by_cases hij : i = j
        · subst hij; rw [List.getElem?_set_self (by omega)]
        · rw [List.getElem?_set_ne (by omega), h3 i (by omega)])
  exact ⟨vals', e, hl, hv⟩

theorem add_step {w} (ctx hv : List (BitVec w)) (n : Nat) (hc : ctx.length = n) (hh : hv.length = n) (j : Nat) (c : List (BitVec w))
    (hj : j < n) (hP : c.length = n ∧ (∀ i, i < j → c[i]? = some (ctx.getD i 0 + hv.getD i 0)) ∧ ∀ i, j ≤ i → c[i]? = ctx[i]?) :
    ∃ c', (do let a ← rd c j; let b ← rd hv j; wr c j (a + b)) = Res.ok c' ∧
      c'.length = n ∧ (∀ i, i < j + 1 → c'[i]? = some (ctx.getD i 0 + hv.getD i 0)) ∧ ∀ i, j + 1 ≤ i → c'[i]? = ctx[i]? := by
  obtain ⟨h1, h2, h3⟩ := hP
  have hcj : c[j]? = some (ctx.getD j 0) := by
    rw [h3 j (Nat.le_refl _)]; simp [List.getD, show j < ctx.length by omega]
  have hhj : hv[j]? = some (hv.getD j 0) := by
    simp [List.getD, show j < hv.length by omega]
  refine ⟨c.set j (ctx.getD j 0 + hv.getD j 0), ?_, by simp [h1], ?_, ?_⟩
  · rw [rd_eq_ok hcj, Res.ok_bind, rd_eq_ok hhj, Res.ok_bind, wr_ok _ (by omega)]
  · intro i hi
    by_cases hij : i = j
    · subst hij; rw [List.getElem?_set_self (by omega)]
    · rw [List.getElem?_set_ne (by omega), h2 i (by omega)]
  · intro i hi
    rw [List.getElem?_set_ne (by omega), h3 i (by omega)]

theorem add_final {w} (ctx hv c : List (BitVec w)) (n : Nat) (hc : ctx.length = n) (hh : hv.length = n)
    (h1 : c.length = n) (h2 : ∀ i, i < n → c[i]? = some (ctx.getD i 0 + hv.getD i 0)) :
    c = List.zipWith (· + ·) ctx hv := by
  apply List.ext_getElem?
  intro i
  by_cases hi : i < n
  · rw [h2 i hi, List.getElem?_zipWith]
    simp [List.getD, show i < ctx.length by omega, show i < hv.length by omega]
  · rw [List.getElem?_eq_none (by omega), List.getElem?_eq_none (by simp; omega)]

theorem addLoop_ok {w} (ctx hv : List (BitVec w)) (n : Nat) (hc : ctx.length = n) (hh : hv.length = n) :
    addLoop n ctx hv = .ok (List.zipWith (· + ·) ctx hv) := by
  obtain ⟨c, e, h1, h2, _⟩ := forLoop_inv (f := fun i (c : List (BitVec w)) => do
      let a ← rd c i
      let b ← rd hv i
      wr c i (a + b))
    (fun j c => c.length = n ∧ (∀ i, i < j → c[i]? = some (ctx.getD i 0 + hv.getD i 0)) ∧ ∀ i, j ≤ i → c[i]? = ctx[i]?)
    (lo := 0) (hi := n) (s := ctx) (by omega) ⟨hc, by omega, fun _ _ => rfl⟩
    (fun j c _ hj hP => add_step ctx hv n hc hh j c hj hP)
  rw [addLoop, e, add_final ctx hv c n hc hh h1 h2]

theorem addUnrolled_ok {w} (ctx hv : List (BitVec w)) (n : Nat) (rows : List (Nat × Nat)) (hrows : rows = (List.range n).map (fun i => (i, i)))
    (hc : ctx.length = n) (hh : hv.length = n) :
    addUnrolled rows ctx hv = .ok (List.zipWith (· + ·) ctx hv) := by
  obtain ⟨c, e, h1, h2, _⟩ := runTable_rows (f := fun (r : Nat × Nat) (c : List (BitVec w)) => do
      let a ← rd c r.1
      let b ← rd hv r.2
      wr c r.1 (a + b)) (rows := rows) (fun i => (i, i))
    (fun j c => c.length = n ∧ (∀ i, i < j → c[i]? = some (ctx.getD i 0 + hv.getD i 0)) ∧ ∀ i, j ≤ i → c[i]? = ctx[i]?)
    (lo := 0) (hi := n) (s := ctx) (by omega) (by rw [hrows, List.range_eq_range']; rfl) ⟨hc, by omega, fun _ _ => rfl⟩
    (fun j c _ hj hP => add_step ctx hv n hc hh j c hj hP)
  rw [addUnrolled, e, add_final ctx hv c n hc hh h1 h2]

/-- The loaders of the big-endian algorithms read the message words of the standard. -/
theorem load_word_be {w ws : Nat} {prog : List LoadStep} (hp : prog = canonProg (List.range ws)) (hws : 0 < ws) (hw : w / 8 = ws)
    (buf : List Byte) (off : Nat) (hb : off + 16 * ws ≤ buf.length) (i : Nat) (v0 : BitVec w) (hi : i < 16) :
    runLoad prog buf (off + i * ws) v0 = .ok (Spec.beWord w ((buf.drop off).take (16 * ws)) i) := by
  have h1 : i * ws + ws ≤ 16 * ws := by
    have := Nat.mul_le_mul_right ws (show i + 1 ≤ 16 by omega)
    rwa [Nat.succ_mul] at this
  rw [runLoad_be hp hws _ _ _ (by omega), Spec.beWord, hw, word_slice _ _ _ _ _ h1]

/-- The loader of MD5 reads the message words of the standard. -/
theorem load_word_le {prog : List LoadStep} (hp : prog = canonProg (List.range 4).reverse)
    (buf : List Byte) (off : Nat) (hb : off + 64 ≤ buf.length) (i : Nat) (v0 : BitVec 32) (hi : i < 16) :
    runLoad prog buf (off + i * 4) v0 = .ok (Spec.leWord ((buf.drop off).take 64) i) := by
  rw [runLoad_le hp (by omega) _ _ _ (by omega), Spec.leWord, word_slice _ _ _ _ _ (by omega)]

end Model

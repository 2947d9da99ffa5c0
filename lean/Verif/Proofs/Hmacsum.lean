import Verif.Model.Hmacsum
import Verif.Proofs.HandleOps
import Verif.Proofs.Getopt
/-! The main program. -/

namespace Model

open Spec (Kind Line hex Selected DigestLines printOrder)

variable {E : Environment} {base : Nat → List Nat}

/-- What is known about the result of the main program for a source. -/
structure SourceResult (E : Environment) (o : Options) (source : List Nat) (out : List Line) (x : Exit) : Prop where
  lines : ∃ ds, (x.out = out ++ ds ∨ x.out = out ++ ds ++ [.aborted] ∧ x.status = false ∧ E.arrival.atFinal = true) ∧
    (x.status = true → ds ≠ [] ∧ E.arrival.atFinal = false ∧ x.out = out ++ ds) ∧ (E.arrival.atProcessed = true → ds = []) ∧
    (ds ≠ [] → ∃ inp size, E.files source = some inp ∧ inp.size = some size ∧ size ≤ inp.content.length ∧
      ((∀ k, Selected o.digests k → k.LengthOk size) → DigestLines o.digests (inp.content.take size) ds))

theorem onError_ok (hT : E.tool.Ok) (out : List Line) (blk : List Nat) (slot : Option Handle) (W : World) (hI : VarInv E.tool base blk slot W) :
    ∃ W', onError E out slot W = .ok (⟨false, out⟩, W') ∧ NoneInv base blk W' := by
  obtain ⟨W', e, h⟩ := sumFree_ok hT E.freeOk blk slot W hI
  exact ⟨W', by simp [onError, e], h⟩

theorem onAbort_ok (hT : E.tool.Ok) (out : List Line) (blk : List Nat) (h : Handle) (W : World) (hI : HandleInv E.tool base blk h W) :
    ∃ x W', onAbort E out h W = .ok (x, W') ∧ NoneInv base blk W' ∧ (x.out = out ∨ x.out = out ++ [.aborted] ∧ x.status = false ∧ E.arrival.atFinal = true) ∧
      (x.status = true → x.out = out ∧ E.arrival.atFinal = false) ∧ (E.closeOk = true → E.freeOk = true → E.arrival.atFinal = false → x.status = true) := by
  by_cases hc : E.closeOk = true
  · obtain ⟨W1, e1, h1⟩ := sumFree_ok hT E.freeOk blk (some h) W hI
    by_cases hf : E.freeOk = true
    · have e1 : sumFree E.tool E.freeOk (some h) W = .ok (1, none, W1) := by simpa [hf] using e1
      by_cases ha : E.arrival.atFinal = true
      · exact ⟨⟨false, out ++ [.aborted]⟩, W1, by simp [onAbort, closeInput, hc, e1, ha], h1, .inr ⟨rfl, rfl, ha⟩, by simp, by simp [ha]⟩
      · have ha : E.arrival.atFinal = false := by simpa using ha
        exact ⟨⟨true, out⟩, W1, by simp [onAbort, closeInput, hc, e1, ha], h1, .inl rfl, by simp [ha], by simp⟩
    · have hf : E.freeOk = false := by simpa using hf
      have e1 : sumFree E.tool E.freeOk (some h) W = .ok (-1, none, W1) := by simpa [hf] using e1
      obtain ⟨W2, e2, h2⟩ := onError_ok (E := E) hT out blk none W1 h1
      exact ⟨⟨false, out⟩, W2, by simp [onAbort, closeInput, hc, e1, e2], h2, .inl rfl, by simp, by simp [hf]⟩
  · obtain ⟨W2, e2, h2⟩ := onError_ok hT out blk (some h) W hI
    exact ⟨⟨false, out⟩, W2, by simp [onAbort, closeInput, hc, e2], h2, .inl rfl, by simp, by simp [hc]⟩

/-- Without digest lines. -/
theorem SourceResult.empty {o : Options} {source : List Nat} {out : List Line} {x : Exit}
    (h : x.out = out ∨ x.out = out ++ [.aborted] ∧ x.status = false ∧ E.arrival.atFinal = true) (hs : x.status = false) : SourceResult E o source out x :=
  ⟨⟨[], by simpa using h, by simp [hs], fun _ => rfl, by simp⟩⟩

theorem Arrival.atProcessed_of_open {a : Arrival} (h : a.atOpen = true) : a.atProcessed = true := by cases a <;> simp_all [Arrival.atOpen, Arrival.atProcessed]

theorem Arrival.atFinal_of_processed {a : Arrival} (h : a.atProcessed = true) : a.atFinal = true := by cases a <;> simp_all [Arrival.atFinal, Arrival.atProcessed]

theorem Arrival.atRead_false {a : Arrival} (h : a.atProcessed = false) (n : Nat) : a.atRead n = false := by cases a <;> simp_all [Arrival.atRead, Arrival.atProcessed]

theorem processAndPrint_ok (hT : E.tool.Ok) (o : Options) (source : List Nat) (inp : Input) (hfile : E.files source = some inp) (out : List Line) (blk : List Nat) (h : Handle) (W : World)
    (hI : HandleInv E.tool base blk h W) (hsel : ∀ k, h.calculate k = true ↔ Selected o.digests k) (hab : h.abort = false) (hpos : h.position = 0) :
    ∃ x W', processAndPrint E inp out h W = .ok (x, W') ∧ NoneInv base blk W' ∧ SourceResult E o source out x ∧
      (∀ size, inp.size = some size → size ≤ inp.content.length → (∀ i, ∃ c, inp.reads i = some c ∧ 0 < c) → (∀ n, E.tool.alloc n = true) → E.arrival = .never → E.closeOk = true →
        E.freeOk = true → 0 < h.bufferSize → h.bufferSize ≤ ssizeMax → (∀ k, h.context k = none) → x.status = true) := by
  obtain ⟨r1, h1, W1, e1, hI1, hcalc1, -⟩ := processInput_inv hT inp E.arrival.atRead blk h W hI
  obtain ⟨⟨b, hrel⟩, hstr, -, -⟩ := hI
  obtain ⟨r, ctx', str', ab', pos', rc', V, b', e2, -, -, hrv, -, -, -, -, habt, hsuc, hprog⟩ := processInput_ok hT inp E.arrival.atRead h W b hrel hstr
  rw [e1] at e2
  cases e2
  by_cases ha : E.arrival.atProcessed = true
  · obtain ⟨x, W2, e3, h3, hout, hst, -⟩ := onAbort_ok hT out blk _ W1 hI1
    have hx : x.status = false := by
      by_contra hx
      have := (hst (by simpa using hx)).2
      rw [Arrival.atFinal_of_processed ha] at this
      cases this
    exact ⟨x, W2, by simp [processAndPrint, e1, ha, e3], h3, .empty hout hx, fun _ _ _ _ _ hn => by rw [hn] at ha; cases ha⟩
  have ha : E.arrival.atProcessed = false := by simpa using ha
  rcases hrv with rfl | rfl
  · obtain ⟨size, d, hs, -, -, -, hpre, -, -, hd, -, -, hk⟩ := hsuc rfl
    have hab' : ab' = false := by
      by_contra hab'
      rcases habt (by simpa using hab') with h1 | ⟨n, -, -, h3⟩
      · rw [hab] at h1; cases h1
      · rw [Arrival.atRead_false ha] at h3; cases h3
    have hd : d.length = size := by simpa [hab'] using hd
    rw [hpos, List.drop_zero] at hpre
    have hdt : d = inp.content.take size := hd ▸ (List.prefix_iff_eq_take.mp hpre)
    have hstr' : ∀ k, h.calculate k = true → ∃ p, str' k = some (p, hex (k.len64.digest d) ++ [0]) := fun k hc => by
      have := hk k
      rw [if_pos hc] at this
      obtain ⟨p, s, -, h2⟩ := this
      exact ⟨p, h2⟩
    have ep := printHashes_ok { h with context := ctx', hashString := str', abort := ab', position := pos', readCount := rc' } (fun k hc => by
      obtain ⟨p, hp⟩ := hstr' k hc
      exact ⟨p, _, hp, by simp⟩) digestOrder
    have htext : ∀ k, h.calculate k = true → Handle.text { h with context := ctx', hashString := str', abort := ab', position := pos', readCount := rc' } k = hex (k.len64.digest d) := fun k hc => by
      obtain ⟨p, hp⟩ := hstr' k hc
      simp only [Handle.text, hp, Option.map_some, Option.getD_some]
      rw [takeWhile_hex]
    generalize hds : (digestOrder.filter h.calculate).map (fun k => Line.digest k (hex (k.len64.digest d))) = ds
    have hds' : ((digestOrder.filter h.calculate).map fun k => (k, Handle.text { h with context := ctx', hashString := str', abort := ab', position := pos', readCount := rc' } k)).map
        (fun d => Line.digest d.1 d.2) = ds := by
      rw [← hds, List.map_map]
      refine List.map_congr_left fun k hk => ?_
      simp [htext k (List.mem_filter.mp hk).2]
    obtain ⟨x, W2, e3, h3, hout, hst, hcomp⟩ := onAbort_ok hT (out ++ ds) blk _ W1 hI1
    have hne : ds ≠ [] := by
      have hm : Kind.md5 ∈ digestOrder.filter h.calculate := List.mem_filter.mpr ⟨by decide, (hsel .md5).mpr (.inl rfl)⟩
      rw [← hds]
      intro e0
      rw [List.map_eq_nil_iff.mp e0] at hm
      cases hm
    refine ⟨x, W2, ?_, h3, ⟨⟨ds, hout, fun hx => ⟨hne, (hst hx).2, (hst hx).1⟩, fun hx => absurd (ha.symm.trans hx) (by decide), fun _ => ?_⟩⟩, ?_⟩
    · simp only [processAndPrint, e1, Res.ok_bind, ha, Bool.false_eq_true, if_false, ne_eq, not_true_eq_false]
      rw [ep]
      simp only [Res.ok_bind]
      rw [hds', e3]
    · refine ⟨inp, size, hfile, hs, ?_, fun hl => ⟨h.calculate, hsel, ?_⟩⟩
      · rw [← hd]
        exact hpre.length_le
      · rw [← hds, show digestOrder = printOrder from rfl]
        refine List.map_congr_left fun k hk => ?_
        rw [len64_digest _ _ (hd ▸ hl k ((hsel k).mp (List.mem_filter.mp hk).2)), hdt]
    · intro size' hs' hsz hreads hal harr hc hf hb hbs hctx
      exact hcomp hc hf (by rw [harr]; rfl)
  · obtain ⟨W2, e3, h3⟩ := onError_ok hT out blk (some _) W1 hI1
    refine ⟨⟨false, out⟩, W2, by simp [processAndPrint, e1, ha, e3], h3, .empty (.inl rfl) rfl, ?_⟩
    intro size' hs' hsz hreads hal harr hc hf hb hbs hctx
    have := hprog size' hs' hb hbs (fun k _ => hctx k) (fun n _ => hal n) (by omega) (fun i _ => hreads i)
    exact absurd this (by decide)

/-- The buffer size option does not fail. -/
def BufferOptionOk (E : Environment) (o : Options) : Prop :=
  ∀ s, o.bufferSize = some s → ∀ h, ∃ r n, setBufferSize o.verbose E.dp s h = .ok (r, { h with bufferSize := n }) ∧ (r = 0 ∨ r = 1 ∧ 0 < n)

theorem applyBufferSize_ok (hdp : E.dp ≠ some 0) (o : Options) (h : Handle) (hb : h.bufferSize = 32768) :
    ∃ ok n, applyBufferSize E o h = .ok (ok, { h with bufferSize := n }) ∧ n ≤ ssizeMax ∧ (BufferOptionOk E o → ok = true ∧ 0 < n) := by
  have h32 : 32768 ≤ ssizeMax := by decide
  unfold applyBufferSize
  split
  · exact ⟨true, 32768, by rw [← hb], h32, fun _ => ⟨rfl, by decide⟩⟩
  · rename_i s hs
    obtain ⟨r, n, e, hr⟩ := setBufferSize_ok o.verbose E.dp hdp s h
    rw [e]
    simp only [Res.ok_bind]
    rcases hr with ⟨rfl, hn⟩ | ⟨rfl | rfl, rfl⟩
    · refine ⟨true, n, by simp [Nat.not_lt.mpr hn], hn, fun H => ⟨rfl, ?_⟩⟩
      obtain ⟨r', n', e', h'⟩ := H s hs h
      rw [e] at e'
      injection e' with e'
      have hn' : n = n' := congrArg (fun x : Int × Handle => x.2.bufferSize) e'
      have hr' : (1 : Int) = r' := congrArg (fun x : Int × Handle => x.1) e'
      subst hr'
      rcases h' with h' | ⟨-, h'⟩
      · exact absurd h' (by decide)
      · omega
    · exact ⟨true, 32768, by simp, h32, fun _ => ⟨rfl, by decide⟩⟩
    · refine ⟨false, h.bufferSize, by simp, by omega, fun H => ?_⟩
      obtain ⟨r', n', e', h'⟩ := H s hs h
      rw [e] at e'
      injection e' with e'
      have hr' : (-1 : Int) = r' := congrArg (fun x : Int × Handle => x.1) e'
      subst hr'
      rcases h' with h' | ⟨h', -⟩ <;> exact absurd h' (by decide)

theorem openAndProcess_ok (hT : E.tool.Ok) (o : Options) (source : List Nat) (out : List Line) (blk : List Nat) (h : Handle) (W : World)
    (hI : HandleInv E.tool base blk h W) (hsel : ∀ k, h.calculate k = true ↔ Selected o.digests k) (hab : h.abort = false) (hpos : h.position = 0) :
    ∃ x W', openAndProcess E source out h W = .ok (x, W') ∧ NoneInv base blk W' ∧ SourceResult E o source out x ∧
      (∀ inp size, E.files source = some inp → inp.size = some size → size ≤ inp.content.length → (∀ i, ∃ c, inp.reads i = some c ∧ 0 < c) → (∀ n, E.tool.alloc n = true) →
        E.arrival = .never → E.closeOk = true → E.freeOk = true → 0 < h.bufferSize → h.bufferSize ≤ ssizeMax → (∀ k, h.context k = none) → x.status = true) := by
  have eopen : (openInput true h).2 = h := by
    cases h
    simp only at hpos
    subst hpos
    rfl
  have abortCase : E.arrival.atOpen = true → ∃ x W', onAbort E out h W = .ok (x, W') ∧ NoneInv base blk W' ∧ SourceResult E o source out x ∧ E.arrival ≠ .never := fun ha => by
    obtain ⟨x, W2, e3, h3, hout, hst, -⟩ := onAbort_ok hT out blk h W hI
    have hx : x.status = false := by
      by_contra hx
      have := (hst (by simpa using hx)).2
      rw [Arrival.atFinal_of_processed (Arrival.atProcessed_of_open ha)] at this
      cases this
    exact ⟨x, W2, e3, h3, .empty hout hx, fun hn => by rw [hn] at ha; cases ha⟩
  unfold openAndProcess
  cases hf : E.files source with
  | none =>
    by_cases ha : E.arrival.atOpen = true
    · obtain ⟨x, W', e, h1, h2, h3⟩ := abortCase ha
      exact ⟨x, W', by simp only [ha, if_true]; exact e, h1, h2, by simp⟩
    · obtain ⟨W2, e3, h3⟩ := onError_ok hT out blk (some h) W hI
      refine ⟨⟨false, out⟩, W2, by simp only [ha]; exact e3, h3, .empty (.inl rfl) rfl, by simp⟩
  | some inp =>
    simp only [eopen]
    by_cases ha : E.arrival.atOpen = true
    · obtain ⟨x, W', e, h1, h2, h3⟩ := abortCase ha
      exact ⟨x, W', by simp only [ha, if_true]; exact e, h1, h2, fun _ _ _ _ _ _ _ hn => absurd hn h3⟩
    · obtain ⟨x, W', e, h1, h2, h3⟩ := processAndPrint_ok hT o source inp hf out blk h W hI hsel hab hpos
      refine ⟨x, W', by simp only [ha]; exact e, h1, h2, fun inp' size hi => ?_⟩
      cases hi
      exact h3 size

theorem runSource_ok (hT : E.tool.Ok) (hdp : E.dp ≠ some 0) (o : Options) (source : List Nat) (out : List Line) (blk : List Nat) (W : World) (hW : NoneInv base blk W) :
    ∃ x W' extra, runSource E o source out W = .ok (x, W') ∧ NoneInv base (extra ++ blk) W' ∧ extra.length ≤ 1 ∧ (extra ≠ [] → x.status = false ∧ ∃ n, E.tool.alloc n = false) ∧
      SourceResult E o source out x ∧
      (∀ inp size, E.files source = some inp → inp.size = some size → size ≤ inp.content.length → (∀ i, ∃ c, inp.reads i = some c ∧ 0 < c) → (∀ n, E.tool.alloc n = true) →
        E.arrival = .never → E.closeOk = true → E.freeOk = true → E.splitOk = true → E.splitFreeOk = true → BufferOptionOk E o → x.status = true) := by
  rcases sumInitialize_ok hT blk W hW with ⟨h, W1, e1, hI, hcalc, hctx, hbs, hab, hpos, -⟩ | ⟨W1, extra, e1, hN, hl, -, n, -, hn⟩
  · obtain ⟨ok, m, e2, hm, hbo⟩ := applyBufferSize_ok hdp o h hbs
    have hI2 : HandleInv E.tool base blk { h with bufferSize := m } W1 := hI
    have key : ∃ ok2 h2 W2, applyDigests E o { h with bufferSize := m } W1 = .ok (ok2, h2, W2) ∧ HandleInv E.tool base blk h2 W2 ∧ h2.context = h.context ∧ h2.bufferSize = m ∧ h2.abort = h.abort ∧
        h2.position = h.position ∧ (ok2 = true → ∀ k, h2.calculate k = true ↔ Selected o.digests k) ∧
        (E.splitOk = true → E.splitFreeOk = true → (∀ n, E.tool.alloc n = true) → ok2 = true) := by
      unfold applyDigests
      split
      · rename_i hd
        refine ⟨true, _, W1, rfl, hI2, rfl, rfl, rfl, rfl, fun _ k => ?_, fun _ _ _ => rfl⟩
        rw [Selected, hd]
        simp [hcalc]
      · rename_i s hd
        obtain ⟨r, calc', str', W2, e3, h3, hr, h4, -, -, h5⟩ := setDigestTypes_ok hT E.mc E.splitOk E.splitFreeOk s blk _ W1 hI2
        rw [e3]
        refine ⟨decide (r ≠ -1), _, W2, rfl, h3, rfl, rfl, rfl, rfl, fun hok k => ?_, fun a b c => ?_⟩
        · have hr0 : r = 0 := by
            rcases hr with rfl | rfl
            · rfl
            · simp at hok
          simp only [h4 hr0 k, hcalc, Selected, hd]
          simp
        · simp [h5 a b fun n _ => c n]
    obtain ⟨ok2, h2, W2, e3, hI3, hctx2, hbs2, hab2, hpos2, hsel, hgood⟩ := key
    cases ok with
    | false =>
      obtain ⟨W3, e4, h4⟩ := onError_ok hT out blk (some _) W1 hI2
      refine ⟨⟨false, out⟩, W3, [], by simp [runSource, e1, e2, e4], h4, by simp, by simp, .empty (.inl rfl) rfl, ?_⟩
      intro _ _ _ _ _ _ _ _ _ _ _ _ H
      exact absurd (hbo H).1 (by decide)
    | true =>
      cases ok2 with
      | false =>
        obtain ⟨W3, e4, h4⟩ := onError_ok hT out blk (some _) W2 hI3
        refine ⟨⟨false, out⟩, W3, [], by simp [runSource, e1, e2, e3, e4], h4, by simp, by simp, .empty (.inl rfl) rfl, ?_⟩
        intro _ _ _ _ _ _ hal _ _ _ a b _
        exact absurd (hgood a b hal) (by decide)
      | true =>
        obtain ⟨x, W3, e4, h4, h5, h6⟩ := openAndProcess_ok hT o source out blk h2 W2 hI3 (hsel rfl) (hab2.trans hab) (hpos2.trans hpos)
        refine ⟨x, W3, [], by simp [runSource, e1, e2, e3, e4], h4, by simp, by simp, h5, ?_⟩
        intro inp size hf hs hsz hr hal harr hc hfr _ _ H
        exact h6 inp size hf hs hsz hr hal harr hc hfr (by rw [hbs2]; exact (hbo H).2) (by rw [hbs2]; exact hm) (fun k => by rw [hctx2]; exact hctx k)
  · obtain ⟨W2, e2, h2⟩ := onError_ok (E := E) hT out (extra ++ blk) none W1 hN
    refine ⟨⟨false, out⟩, W2, extra, by simp [runSource, e1, e2], h2, hl, fun _ => ⟨rfl, n, hn⟩, .empty (.inl rfl) rfl, ?_⟩
    intro _ _ _ _ _ _ hal
    rw [hal n] at hn
    cases hn

/-! ### The option loop -/

theorem OptSteps.split {mc args opts s2} : ∀ {os1 os2 s}, OptSteps mc args opts s (os1 ++ os2) s2 → ∃ s1, OptSteps mc args opts s os1 s1 ∧ OptSteps mc args opts s1 os2 s2
  | [], _, s, h => ⟨s, .nil s, h⟩
  | _ :: os1, _, _, .cons h ha hs => by
    obtain ⟨s1, h1, h2⟩ := OptSteps.split (os1 := os1) hs
    exact ⟨s1, .cons h ha h1, h2⟩

/-- What options -d, -p and -v do to the variables. -/
def Options.apply (o : Options) (x : Nat × Option (List Nat)) : Options :=
  if x.1 = 100 then { o with digests := x.2 } else if x.1 = 112 then { o with bufferSize := x.2 } else { o with verbose := true }

theorem parse_steps {mc args s os s1} (h : OptSteps mc args (Spec.codes "d:hp:vV") s os s1) : ∀ (o : Options) (fuel : Nat), (∀ x ∈ os, x.1 = 100 ∨ x.1 = 112 ∨ x.1 = 118) →
    parseOptions mc args (os.length + fuel) o s = parseOptions mc args fuel (os.foldl Options.apply o) s1 := by
  induction h with
  | nil s => intro o fuel _; simp
  | @cons s s1 s2 c a os h ha _ ih =>
    intro o fuel hos
    have hc := hos (c, a) (by simp)
    have ih := fun o => ih o fuel (fun x hx => hos x (by simp [hx]))
    rw [List.length_cons, show os.length + 1 + fuel = (os.length + fuel) + 1 by omega, parseOptions, h]
    simp only [Res.ok_bind, List.foldl_cons]
    simp only at hc
    rcases hc with rfl | rfl | rfl <;> simp [ha, ih, Options.apply]

theorem foldl_apply : ∀ (os : List (Nat × Option (List Nat))) (o : Options), (∀ x ∈ os, x.1 = 100 ∨ x.1 = 112 ∨ x.1 = 118) → (∀ x ∈ os, x.1 ≠ 118 → x.2 ≠ none) →
    os.foldl Options.apply o = ⟨(Spec.lastArgument 100 os).or o.digests, (Spec.lastArgument 112 os).or o.bufferSize, o.verbose || os.any (·.1 = 118)⟩ := by
  intro os
  induction os using List.reverseRecOn with
  | nil => intro o _ _; simp [Spec.lastArgument]
  | append_singleton os x ih =>
    intro o h1 h2
    rw [List.foldl_append, ih o (fun y hy => h1 y (by simp [hy])) (fun y hy => h2 y (by simp [hy]))]
    obtain ⟨c, a⟩ := x
    have hc := h1 (c, a) (by simp)
    have ha := h2 (c, a) (by simp)
    simp only at hc ha
    rcases hc with rfl | rfl | rfl
    · obtain ⟨a, rfl⟩ := Option.ne_none_iff_exists'.mp (ha (by decide))
      simp [Options.apply, Spec.lastArgument]
    · obtain ⟨a, rfl⟩ := Option.ne_none_iff_exists'.mp (ha (by decide))
      simp [Options.apply, Spec.lastArgument]
    · simp [Options.apply, Spec.lastArgument]

theorem argAt_ok (bodies : List (List Nat)) (i : Nat) (body : List Nat) (h : bodies[i]? = some body) (h0 : 0 ∉ body) : argAt (argVector bodies) i = .ok body := by
  simp [argAt, argString_body bodies i 0 body h (by omega) (by simpa using h0)]

theorem parse_ok (mc : Bool) (bodies : List (List Nat)) (h0 : ∀ b ∈ bodies, 0 ∉ b) (hdash : ∀ b ∈ bodies.drop 1, b ≠ [45]) :
    ∀ (fuel : Nat) (o : Options) (s : OptState), StOk bodies s → 1 ≤ s.optind → s.work bodies < fuel → ∃ p, parseOptions mc (argVector bodies) fuel o s = .ok p
  | 0, _, _, _, _, h => by omega
  | fuel + 1, o, s, hs, h1, hw => by
    obtain ⟨c, s1, e, hs1, hw1, h11⟩ := getopt_ok mc bodies (Spec.codes "d:hp:vV") h0 hdash s hs h1
    rw [parseOptions, e]
    simp only [Res.ok_bind]
    have hlen : (argVector bodies).length = bodies.length := by simp [argVector]
    cases c with
    | none =>
      dsimp only
      by_cases hi : s1.optind = (argVector bodies).length
      · exact ⟨.missing, by simp [hi]⟩
      · have hlt : s1.optind < bodies.length := by have := hs1.optind; omega
        have hg : bodies[s1.optind]? = some bodies[s1.optind] := List.getElem?_eq_getElem hlt
        exact ⟨_, by rw [if_neg hi, argAt_ok bodies _ _ hg (h0 _ (List.getElem_mem hlt))]; rfl⟩
    | some c =>
      obtain ⟨a, ha⟩ := argString_ok bodies s1 hs1
      have hw1 := hw1 c rfl
      dsimp only
      split
      · rename_i hc
        rw [ha]
        exact parse_ok mc bodies h0 hdash fuel _ s1 hs1 h11 (by have := hw1 (by omega) (by omega); omega)
      split
      · exact ⟨_, rfl⟩
      split
      · rename_i hc
        rw [ha]
        exact parse_ok mc bodies h0 hdash fuel _ s1 hs1 h11 (by have := hw1 (by omega) (by omega); omega)
      split
      · exact parse_ok mc bodies h0 hdash fuel _ s1 hs1 h11 (by have := hw1 (by omega) (by omega); omega)
      split
      · exact ⟨_, rfl⟩
      · have hlt : s1.optind - 1 < bodies.length := by have := hs1.optind; omega
        have hg : bodies[s1.optind - 1]? = some bodies[s1.optind - 1] := List.getElem?_eq_getElem hlt
        exact ⟨_, by rw [argAt_ok bodies _ _ hg (h0 _ (List.getElem_mem hlt))]; rfl⟩

end Model

import Verif.Proofs.HostPrograms
import Verif.Props.HostBackend
import Verif.Props.MultiBuilds
import Verif.Props.PyBuilds
import Verif.Props.FuzzBuilds
/-! C86: programs with many contexts, the Python module and the fuzz targets, in every build and on hosts whose `size_t` has another number of bits. -/

namespace Props

open Model Spec Configure

variable {hb : Nat} {ch : Kind → Choice} {L : Kind → Library}

/-! ### Programs with many contexts -/

/-- The caller's obligation for a call: areas are as long as the sizes say, where the build looks at them. -/
def HostCallOk (hb : Nat) : Choice → ApiCall → Prop
  | .builtin, c => HostValid hb c
  | .crypto B, c => BuildValid hb B c

/-- A call that is not refused on account of its size. -/
def FitsHost (hb : Nat) (x : Choice) (k : Kind) : ApiCall → Prop
  | .update _ n => n ≤ x.limit ∧ n ≤ sizeLimit hb
  | .finalize _ n => k.hashSize ≤ n ∧ n < 2 ^ 32 ∧ n ≤ sizeLimit hb
  | _ => True

/-- The sizes of a call are at most the limits of the build and the host. -/
def WithinChoice (hb : Nat) : Choice → ApiCall → Prop
  | .builtin, c => WithinLimit hb c
  | .crypto B, c => WithinBuild hb B c

theorem chClip_valid (h1 : 16 ≤ hb) (h2 : hb ≤ 64) {x : Choice} {c : ApiCall} (h : HostCallOk hb x c) : (chClip hb x c).Valid := by
  cases x with
  | builtin => exact clipCall_valid h1 h2 h
  | crypto B => exact bClip_valid h

theorem chClip_within {x : Choice} {c : ApiCall} (h : WithinChoice hb x c) : chClip hb x c = c := by
  cases x with
  | builtin =>
    cases c with
    | update o n => exact congrArg (ApiCall.update o) (clip_le h)
    | finalize o n => exact congrArg (ApiCall.finalize o) (clip_le h)
    | _ => rfl
  | crypto B =>
    cases c with
    | update o n => exact congrArg (ApiCall.update o) (clipTo_le (by rw [updateLimit_eq]; exact h))
    | finalize o n => exact congrArg (ApiCall.finalize o) (clipTo_le (by rw [outputLimit_eq]; exact h))
    | _ => rfl

theorem FitsHost.fits {x : Choice} {k : Kind} {c : ApiCall} (h : FitsHost hb x k c) : Fits x k c := by
  match c, h with
  | .init, _ => trivial
  | .initNull, _ => trivial
  | .free, _ => trivial
  | .freeNull, _ => trivial
  | .update none _, _ => trivial
  | .finalize none _, _ => trivial
  | .update (some _) _, h => exact h.1
  | .finalize (some _) _, h => exact ⟨h.1, h.2.1⟩

theorem FitsHost.within (h1 : 16 ≤ hb) {x : Choice} {k : Kind} {c : ApiCall} (h : FitsHost hb x k c) : WithinChoice hb x c := by
  have hp : 2 ^ hb = 2 * 2 ^ (hb - 1) := by rw [← Nat.pow_succ']; congr 1; omega
  have hlim : sizeLimit hb ≤ 2 ^ hb - 1 := by unfold sizeLimit; omega
  cases x with
  | builtin =>
    cases c with
    | update o n => exact h.2
    | finalize o n => exact h.2.2
    | _ => trivial
  | crypto B =>
    cases c with
    | update o n =>
      obtain ⟨ha, hb'⟩ := h
      show n ≤ updateLimit hb B
      rcases B with (_ | _) | _ | _
      · exact hb'
      · exact ha
      · exact hb'
      · exact hb'
    | finalize o n =>
      obtain ⟨-, ha, hb'⟩ := h
      show n ≤ outputLimit hb B
      rcases B with (_ | _) | _ | _
      · exact hb'
      · exact hb'
      · exact Nat.le_min.2 ⟨by omega, by omega⟩
      · exact Nat.le_min.2 ⟨by omega, by omega⟩
    | _ => trivial

/-- The largest size of an update. -/
def choiceMax (hb : Nat) : Choice → Nat
  | .builtin => hostMax hb
  | .crypto B => hostMaxUpdate hb B

theorem chClip_update (x : Choice) (b : Option (List Byte)) (n : Nat) : chClip hb x (.update b n) = .update b (if n ≤ choiceMax hb x then n else 2 ^ 63) := by
  cases x <;> rfl

/-- What a context was given does not depend on how refused calls are written. -/
theorem accepted_chClip (x : Choice) : ∀ (h : List (ApiCall × Reply)) (a : Option (List Byte)), (∀ c ∈ h, ∀ b n, c.1 = .update b n → choiceMax hb x < n → c.2.code ≠ 1) →
    accepted (h.map fun c => (chClip hb x c.1, c.2)) a = accepted h a
  | [], _, _ => rfl
  | (c, r) :: h, a, hc => by
    have ih := fun a => accepted_chClip x h a fun d hd => hc d (List.mem_cons_of_mem _ hd)
    match c with
    | .init => cases x <;> exact ih _
    | .initNull => cases x <;> exact ih _
    | .free => cases x <;> exact ih _
    | .freeNull => cases x <;> exact ih _
    | .finalize o n => cases x <;> cases o <;> exact ih _
    | .update b n =>
      by_cases hn : n ≤ choiceMax hb x
      · simp only [List.map_cons, chClip_update, if_pos hn]
        cases b <;> exact ih _
      · have hr : r.code ≠ 1 := hc _ (List.mem_cons_self ..) b n rfl (Nat.lt_of_not_le hn)
        simp only [List.map_cons, chClip_update, if_neg hn]
        cases b
        · exact ih _
        · simp only [accepted, if_neg hr]
          exact ih _

/-- An update whose size is above the limit does not succeed. -/
theorem mixedHost_refused (T : Tool) (k : Kind) (b : Option (List Byte)) (size n : Nat) (slot : Option Nat) (m : MixedMem L) (r : Reply) (slot' : Option Nat) (m' : MixedMem L)
    (e : (Contexts.mixedHost hb ch L T).call k (.update b size) n slot m = .ok (r, slot', m')) (h : choiceMax hb (ch k) < size) : r.code ≠ 1 := by
  cases hk : ch k with
  | builtin =>
    rw [hk] at h
    have h' : hostMax hb < size := h
    simp only [Contexts.mixedHost, hk, Contexts.host, hostStep] at e
    cases slot with
    | none =>
      simp [hostHUpdate, hostUpdate] at e
      rw [← e.1]
      simp
    | some p =>
      simp only [hostHUpdate] at e
      generalize getKey p (m.mem.view k.width).live = q at e
      rcases q with _ | (c | d)
      · simp at e
      · cases b <;> simp [hostUpdate, h'] at e <;> rw [← e.1] <;> simp
      · simp at e
  | crypto B =>
    rw [hk] at h
    have h' : hostMaxUpdate hb B < size := h
    simp only [Contexts.mixedHost, hk] at e
    rcases slot with _ | p <;> rcases b with _ | b <;> simp [hostBStep, hostBUpdate, h'] at e <;> rw [← e.1] <;> simp

theorem multi_refused (T : Tool) (kinds : Nat → Kind) : ∀ (calls : List (Nat × ApiCall)) (n : Nat) (slots : Nat → Option Nat) (m : MixedMem L) (rs : List Reply) (slots' : Nat → Option Nat) (m' : MixedMem L),
    Builds.multi (.mixedHost hb ch L T) kinds n calls slots m = .ok (rs, slots', m') → ∀ c ∈ calls.zip rs, ∀ b size, c.1.2 = .update b size → choiceMax hb (ch (kinds c.1.1)) < size → c.2.code ≠ 1
  | [], _, _, _, _, _, _, _, c, hc, _, _, _, _ => by simp at hc
  | (i, c) :: cs, n, slots, m, rs, slots', m', e, d, hd, b, size, hu, hlt => by
    simp only [Builds.multi] at e
    cases e1 : (Contexts.mixedHost hb ch L T).call (kinds i) c n (slots i) m with
    | ok x =>
      obtain ⟨r1, slot1, m1⟩ := x
      rw [e1] at e
      simp only [Res.ok_bind] at e
      cases e2 : Builds.multi (.mixedHost hb ch L T) kinds (n + 1) cs (Function.update slots i slot1) m1 with
      | ok y =>
        obtain ⟨rs2, slots2, m2⟩ := y
        rw [e2] at e
        cases e
        rw [List.zip_cons_cons, List.mem_cons] at hd
        rcases hd with rfl | hd
        · simp only at hu hlt ⊢
          subst hu
          exact mixedHost_refused T _ b size n _ m r1 slot1 m1 e1 hlt
        · exact multi_refused T kinds cs (n + 1) _ m1 rs2 _ _ e2 d hd b size hu hlt
      | ub => rw [e2] at e; cases e
      | diverge => rw [e2] at e; cases e
    | ub => rw [e1] at e; cases e
    | diverge => rw [e1] at e; cases e

theorem clipCalls_length (kinds : Nat → Kind) (calls : List (Nat × ApiCall)) : (clipCalls hb ch kinds calls).length = calls.length := List.length_map _

theorem historyOf_clip (kinds : Nat → Kind) (i : Nat) (h : List ((Nat × ApiCall) × Reply)) :
    historyOf i (h.map fun x => ((x.1.1, chClip hb (ch (kinds x.1.1)) x.1.2), x.2)) = (historyOf i h).map fun c => (chClip hb (ch (kinds i)) c.1, c.2) := by
  induction h with
  | nil => rfl
  | cons x h ih =>
    obtain ⟨⟨j, c⟩, r⟩ := x
    rw [List.map_cons, historyOf_cons, historyOf_cons, ih]
    by_cases hj : j = i
    · subst hj
      simp
    · simp [hj]

theorem zip_clip (kinds : Nat → Kind) (calls : List (Nat × ApiCall)) (rs : List Reply) : (clipCalls hb ch kinds calls).zip rs = (calls.zip rs).map fun x => ((x.1.1, chClip hb (ch (kinds x.1.1)) x.1.2), x.2) := by
  rw [clipCalls, List.zip_map_left]
  rfl

theorem clipCalls_valid (h1 : 16 ≤ hb) (h2 : hb ≤ 64) {kinds : Nat → Kind} {calls : List (Nat × ApiCall)} (hv : ∀ c ∈ calls, HostCallOk hb (ch (kinds c.1)) c.2) : ∀ c ∈ clipCalls hb ch kinds calls, c.2.Valid := by
  intro c hc
  obtain ⟨d, hd, rfl⟩ := List.mem_map.mp hc
  exact chClip_valid h1 h2 (hv d hd)

/-- C86. On a host whose `size_t` has 16 to 64 bits too: any number of context variables of any mix of algorithms, each algorithm built in or with a crypto library, with their calls interleaved in any way and with sizes also above the
limits: no undefined behaviour, and a finalize that succeeds returns the standard digest of the message of its own variable, if every use of that variable since its creation was an accepted update, whatever calls of the library failed. -/
theorem C86_no_wrong_digest (h1 : 16 ≤ hb) (h2 : hb ≤ 64) (hL : Correct ch L) (T : Tool) (hT : ∀ k n, Kind.Junk k (T.scr k n)) (kinds : Nat → Kind) (calls : List (Nat × ApiCall)) (hv : ∀ c ∈ calls, HostCallOk hb (ch (kinds c.1)) c.2)
    (m : MixedMem L) (hm : m.Wf) :
    ∃ rs slots' m', Builds.multi (.mixedHost hb ch L T) kinds 0 calls (fun _ => none) m = .ok (rs, slots', m') ∧ rs.length = calls.length ∧
      ∀ j i o size r msg, calls[j]? = some (i, .finalize (some o) size) → rs[j]? = some r → r.code = 1 → accepted (historyOf i ((calls.zip rs).take j)) none = some msg → msg.length < 2 ^ 61 →
        r.out = some ((kinds i).std.digest msg ++ o.drop (kinds i).hashSize) := by
  obtain ⟨Rep, hRep⟩ := hL.rep
  have hv' := clipCalls_valid h1 h2 hv
  have heq := multi_host (kinds := kinds) h1 h2 hRep (fun k hk => (hL k hk).2) hT calls 0 _ m (fun _ => none) hv' (mixMulti_start hm _)
  obtain ⟨rs, slots', m', e, hl, hd⟩ := C75_no_wrong_digest hL T hT kinds (clipCalls hb ch kinds calls) hv' m hm
  rw [← heq] at e
  rw [clipCalls_length] at hl
  refine ⟨rs, slots', m', e, hl, fun j i o size r msg hc hr hcode hacc hlen => ?_⟩
  obtain ⟨size', hs⟩ : ∃ size', chClip hb (ch (kinds i)) (.finalize (some o) size) = .finalize (some o) size' := by
    cases ch (kinds i) <;> exact ⟨_, rfl⟩
  refine hd j i o size' r msg (by rw [clipCalls, List.getElem?_map, hc, Option.map_some]; simp only [hs]) hr hcode ?_ hlen
  rw [zip_clip, ← List.map_take, historyOf_clip, accepted_chClip, hacc]
  intro c hc b n hcu hlt
  obtain ⟨x, hx, rfl⟩ := List.mem_map.mp hc
  obtain ⟨hx, hxi⟩ := List.mem_filter.mp hx
  have hxi : x.1.1 = i := by simpa using hxi
  exact multi_refused T kinds calls 0 _ m rs slots' m' e x (List.mem_of_mem_take hx) b n hcu (by rw [hxi]; exact hlt)

/-- C86. A program whose sizes are at most the limits has exactly the results, the outputs, the variables and the memory that it has on a 64-bit host. -/
theorem C86_same_as_64 (h1 : 16 ≤ hb) (h2 : hb ≤ 64) (hL : Correct ch L) (T : Tool) (hT : ∀ k n, Kind.Junk k (T.scr k n)) (kinds : Nat → Kind) (calls : List (Nat × ApiCall)) (hv : ∀ c ∈ calls, c.2.Valid)
    (hw : ∀ c ∈ calls, WithinChoice hb (ch (kinds c.1)) c.2) (m : MixedMem L) (hm : m.Wf) :
    Builds.multi (.mixedHost hb ch L T) kinds 0 calls (fun _ => none) m = Builds.multi (.mixed ch L T) kinds 0 calls (fun _ => none) m := by
  obtain ⟨Rep, hRep⟩ := hL.rep
  have hc : clipCalls hb ch kinds calls = calls := by
    conv_rhs => rw [← List.map_id calls]
    refine List.map_congr_left fun c hc => ?_
    rw [chClip_within (hw c hc)]
    rfl
  have := multi_host (kinds := kinds) h1 h2 hRep (fun k hk => (hL k hk).2) hT calls 0 _ m (fun _ => none) (by rw [hc]; exact hv) (mixMulti_start hm _)
  rwa [hc] at this

theorem filter_clip (h1 : 16 ≤ hb) {kinds : Nat → Kind} {calls : List (Nat × ApiCall)} {i : Nat} (hfit : ∀ c ∈ calls, c.1 = i → FitsHost hb (ch (kinds i)) (kinds i) c.2) :
    (clipCalls hb ch kinds calls).filter (·.1 = i) = calls.filter (·.1 = i) := by
  rw [clipCalls, List.filter_map]
  conv_rhs => rw [← List.map_id (calls.filter (·.1 = i))]
  refine List.map_congr_left fun c hc => ?_
  obtain ⟨hc, hci⟩ := List.mem_filter.mp hc
  have hci : c.1 = i := by simpa using hci
  rw [hci, chClip_within ((hfit c hc hci).within h1), ← hci]
  rfl

theorem history_clip (h1 : 16 ≤ hb) {kinds : Nat → Kind} {calls : List (Nat × ApiCall)} {i : Nat} (rs : List Reply) (hfit : ∀ c ∈ calls, c.1 = i → FitsHost hb (ch (kinds i)) (kinds i) c.2) :
    historyOf i ((clipCalls hb ch kinds calls).zip rs) = historyOf i (calls.zip rs) := by
  rw [zip_clip, historyOf_clip]
  conv_rhs => rw [← List.map_id (historyOf i (calls.zip rs))]
  refine List.map_congr_left fun c hc => ?_
  obtain ⟨x, hx, rfl⟩ := List.mem_map.mp hc
  obtain ⟨hx, hxi⟩ := List.mem_filter.mp hx
  have hxi : x.1.1 = i := by simpa using hxi
  have := hfit x.1 (List.of_mem_zip hx).1 hxi
  rw [chClip_within (this.within h1)]
  rfl

/-- C86. On such a host variable `i` gets exactly the replies that the built-in functions give to its calls alone on a 64-bit host, if the outcomes of its allocations are the same: provided that the calls of the library for its algorithm
(if it is not built in) do not fail, that it uses every context for one message, that its messages have less than 2^61 bytes in total, and that none of its calls is refused on account of its size. Calls on other variables may be refused,
and calls of the library for other algorithms may fail. -/
theorem C86_interleaving (h1 : 16 ≤ hb) (h2 : hb ≤ 64) (hL : Correct ch L) (T : Tool) (hT : ∀ k n, Kind.Junk k (T.scr k n)) (kinds : Nat → Kind) (calls : List (Nat × ApiCall)) (hv : ∀ c ∈ calls, HostCallOk hb (ch (kinds c.1)) c.2)
    (m : MixedMem L) (hm : m.Wf) (i : Nat) (hg : ch (kinds i) ≠ .builtin → Reliable (L (kinds i))) (hfit : ∀ c ∈ calls, c.1 = i → FitsHost hb (ch (kinds i)) (kinds i) c.2)
    (hlen : ((calls.filter (·.1 = i)).map fun c => c.2.bytes).sum < 2 ^ 61) :
    ∃ rs slots' m', Builds.multi (.mixedHost hb ch L T) kinds 0 calls (fun _ => none) m = .ok (rs, slots', m') ∧ rs.length = calls.length ∧
      (UsedOnce false (historyOf i (calls.zip rs)) → ∃ num : Nat → Nat, (∀ n, num n < num (n + 1)) ∧ m.mem.count ≤ num 0 ∧
        ∀ (u : Bool) (env : Env (kinds i).width) (s : St (kinds i).width) (alone : List (ApiCall × Scr (kinds i).width)),
          alone.map (·.1) = (calls.filter (·.1 = i)).map (·.2) → (∀ c ∈ alone, Kind.Junk (kinds i) c.2) → (∀ d, env.allocOk (s.count + d) = T.alloc (num d)) →
          ∃ slot s', run (algOf (kinds i)) u env alone none s = .ok ((historyOf i (calls.zip rs)).map (·.2), slot, s')) := by
  obtain ⟨Rep, hRep⟩ := hL.rep
  have hv' := clipCalls_valid h1 h2 hv
  have heq := multi_host (kinds := kinds) h1 h2 hRep (fun k hk => (hL k hk).2) hT calls 0 _ m (fun _ => none) hv' (mixMulti_start hm _)
  have hfit' : ∀ c ∈ clipCalls hb ch kinds calls, c.1 = i → Fits (ch (kinds i)) (kinds i) c.2 := by
    intro c hc hci
    obtain ⟨d, hd, rfl⟩ := List.mem_map.mp hc
    have hdi : d.1 = i := hci
    have := hfit d hd hdi
    simp only [hdi]
    rw [chClip_within (this.within h1)]
    exact this.fits
  obtain ⟨rs, slots', m', e, hl, h⟩ := C75_interleaving hL T hT kinds (clipCalls hb ch kinds calls) hv' m hm i hg hfit' (by rw [filter_clip h1 hfit]; exact hlen)
  rw [← heq] at e
  rw [clipCalls_length] at hl
  rw [history_clip h1 rs hfit, filter_clip h1 hfit] at h
  exact ⟨rs, slots', m', e, hl, h⟩

/-- C86. On such a host a variable that is used to hash one message, in any number of chunks that the build and the host take, gets the replies "success" and the standard digest of its message, whatever calls are made on other variables in
between (also refused ones) and whatever calls of the library for other algorithms fail, if its allocation and the calls of its own library do not fail. -/
theorem C86_digest (h1 : 16 ≤ hb) (h2 : hb ≤ 64) (hL : Correct ch L) (T : Tool) (hT : ∀ k n, Kind.Junk k (T.scr k n)) (hal : ∀ n, T.alloc n = true) (kinds : Nat → Kind) (calls : List (Nat × ApiCall))
    (hv : ∀ c ∈ calls, HostCallOk hb (ch (kinds c.1)) c.2) (m : MixedMem L) (hm : m.Wf) (i : Nat) (hg : ch (kinds i) ≠ .builtin → Reliable (L (kinds i))) (chunks : List (List Byte)) (out : List Byte) (n : Nat)
    (hi : (calls.filter (·.1 = i)).map (·.2) = .init :: (chunks.map (fun b => .update (some b) b.length) ++ [.finalize (some out) n])) (hn : (kinds i).hashSize ≤ n ∧ n < 2 ^ 32 ∧ n ≤ sizeLimit hb)
    (hc : ∀ b ∈ chunks, b.length ≤ (ch (kinds i)).limit ∧ b.length ≤ sizeLimit hb) (hlen : chunks.flatten.length < 2 ^ 61) :
    ∃ rs slots' m', Builds.multi (.mixedHost hb ch L T) kinds 0 calls (fun _ => none) m = .ok (rs, slots', m') ∧
      (historyOf i (calls.zip rs)).map (·.2) = goodReplies chunks.length ((kinds i).std.digest chunks.flatten ++ out.drop (kinds i).hashSize) := by
  obtain ⟨Rep, hRep⟩ := hL.rep
  have hv' := clipCalls_valid h1 h2 hv
  have heq := multi_host (kinds := kinds) h1 h2 hRep (fun k hk => (hL k hk).2) hT calls 0 _ m (fun _ => none) hv' (mixMulti_start hm _)
  have hfit : ∀ c ∈ calls, c.1 = i → FitsHost hb (ch (kinds i)) (kinds i) c.2 := fun c hcc hci => by
    have h : c.2 ∈ (calls.filter (·.1 = i)).map (·.2) := List.mem_map_of_mem (List.mem_filter.2 ⟨hcc, by simpa using hci⟩)
    rw [hi] at h
    simp only [List.mem_cons, List.mem_append, List.mem_map, List.not_mem_nil, or_false] at h
    rcases h with h | ⟨b, hb, h⟩ | h
    · rw [h]; trivial
    · rw [← h]; exact hc b hb
    · rw [h]; exact hn
  obtain ⟨rs, slots', m', e, h⟩ := C75_digest hL T hT hal kinds (clipCalls hb ch kinds calls) hv' m hm i hg chunks out n (by rw [filter_clip h1 hfit]; exact hi) ⟨hn.1, hn.2.1⟩ (fun b hb => (hc b hb).1) hlen
  rw [← heq] at e
  rw [history_clip h1 rs hfit] at h
  exact ⟨rs, slots', m', e, h⟩

/-- C86. On such a host too: after any program, and a free of every variable that it uses, all variables are NULL, and the objects in memory are those from before the program. -/
theorem C86_released (h1 : 16 ≤ hb) (h2 : hb ≤ 64) (hL : Correct ch L) (T : Tool) (hT : ∀ k n, Kind.Junk k (T.scr k n)) (kinds : Nat → Kind) (calls : List (Nat × ApiCall)) (hv : ∀ c ∈ calls, HostCallOk hb (ch (kinds c.1)) c.2)
    (m : MixedMem L) (hm : m.Wf) (vars : List Nat) (hvars : ∀ c ∈ calls, c.1 ∈ vars) :
    ∃ rs m', Builds.multi (.mixedHost hb ch L T) kinds 0 (calls ++ vars.map fun i => (i, .free)) (fun _ => none) m = .ok (rs, fun _ => none, m') ∧
      (∀ w, ((m'.mem.live w).map (·.1)).Perm ((m.mem.live w).map (·.1))) ∧ ∀ k, (m'.live k).Perm (m.live k) := by
  obtain ⟨Rep, hRep⟩ := hL.rep
  have hfree : ∀ x : Choice, chClip hb x .free = .free := fun x => by cases x <;> rfl
  have happ : clipCalls hb ch kinds (calls ++ vars.map fun i => (i, .free)) = clipCalls hb ch kinds calls ++ vars.map fun i => (i, .free) := by
    simp only [clipCalls, List.map_append, List.map_map, Function.comp_def, hfree]
  have hv' := clipCalls_valid h1 h2 hv
  have heq := multi_host (kinds := kinds) h1 h2 hRep (fun k hk => (hL k hk).2) hT (calls ++ vars.map fun i => (i, .free)) 0 _ m (fun _ => none) (by
    rw [happ]
    intro c hc
    rcases List.mem_append.1 hc with hc | hc
    · exact hv' c hc
    · obtain ⟨j, -, rfl⟩ := List.mem_map.mp hc
      trivial) (mixMulti_start hm _)
  rw [heq, happ]
  exact C75_released hL T hT kinds (clipCalls hb ch kinds calls) hv' m hm vars fun c hc => by
    obtain ⟨d, hd, rfl⟩ := List.mem_map.mp hc
    exact hvars d hd

/-! ### The Python module -/

/-- C86. The Python module on such a host, in every build: every program all of whose bytes objects have at most as many bytes as a bytes object can have there (PY_SSIZE_T_MAX) has the same outcomes and leaves the same state as on a
64-bit host, so all claims of C76 hold there too. -/
theorem C86_python (h1 : 16 ≤ hb) (h2 : hb ≤ 64) (hC : Correct ch L) (kinds : Nat → Kind) (u : Kind → Bool) (al : Nat → Bool) (prog : List (PyOp × PyEnv)) (st : PyState (MixedMem L)) (hs : PyBuildStart st)
    (he : ∀ x ∈ prog, x.2.Ok ∧ x.1.AtMost (sizeLimit hb)) : PyBuilds.program (.mixedHost hb ch L u al) kinds prog st = PyBuilds.program (.mixed ch L u al) kinds prog st := by
  obtain ⟨Rep, hL⟩ := hC.rep
  exact pyHost_program h1 h2 hL (fun k hk => (hC k hk).2) prog st _ he (pyBuildStart_mix hs Rep kinds)

/-- C86. On such a host every program runs to its end without undefined behaviour, whatever the crypto library does, and every statement does what `pyMay` allows. -/
theorem C86_python_safe (h1 : 16 ≤ hb) (h2 : hb ≤ 64) (hC : Correct ch L) (kinds : Nat → Kind) (u : Kind → Bool) (al : Nat → Bool) (prog : List (PyOp × PyEnv)) (st : PyState (MixedMem L)) (hs : PyBuildStart st)
    (he : ∀ x ∈ prog, x.2.Ok ∧ x.1.AtMost (sizeLimit hb)) :
    ∃ rs st' o, PyBuilds.program (.mixedHost hb ch L u al) kinds prog st = .ok (rs, st') ∧ rs.length = prog.length ∧
      pyMayRun kinds (NeverFails ch L) (fun k => (ch k).limit) (∃ n, al n = false) (prog.map (·.1)) rs (fun _ => none) o ∧ ∀ i, (st'.vars i).isSome = (o i).isSome := by
  rw [C86_python h1 h2 hC kinds u al prog st hs he]
  exact C76_safe hC kinds u al prog st hs fun x hx => (he x hx).1

/-- C86. On such a host a digest that `finalize` of a Python object returns is the standard one of all bytes that the object accepted since it was made or initialised again, for messages shorter than 2^61 bytes; and where the crypto library
does not fail, `finalize` returns it. -/
theorem C86_python_digest (h1 : 16 ≤ hb) (h2 : hb ≤ 64) (hC : Correct ch L) (kinds : Nat → Kind) (u : Kind → Bool) (al : Nat → Bool) (prog : List (PyOp × PyEnv)) (st : PyState (MixedMem L)) (hs : PyBuildStart st)
    (he : ∀ x ∈ prog, x.2.Ok ∧ x.1.AtMost (sizeLimit hb)) (rs : List PyResult) (st' : PyState (MixedMem L)) (hp : PyBuilds.program (.mixedHost hb ch L u al) kinds prog st = .ok (rs, st')) (j i : Nat) (e : PyEnv)
    (hj : prog[j]? = some (.finalize i true, e)) (m : List Byte) (hm : pyMessage i ((pyTrace prog rs).take j) = some m) (hl : m.length < 2 ^ 61) :
    (∀ d, rs[j]? = some (.bytes d) → d = (kinds i).std.digest m) ∧ (NeverFails ch L (kinds i) → rs[j]? = some (.bytes ((kinds i).std.digest m))) := by
  rw [C86_python h1 h2 hC kinds u al prog st hs he] at hp
  have he' : ∀ x ∈ prog, x.2.Ok := fun x hx => (he x hx).1
  exact ⟨fun d hd => (C76_no_wrong_digest hC kinds u al prog st hs he' rs st' hp j i true e hj d hd).2 m hm hl, fun hg => C76_digest hC kinds u al prog st hs he' rs st' hp j i e hj hg m hm hl⟩

/-- C86. On such a host `calculate` and `calculate_hmac` of the module return the standard digest and the standard HMAC of their arguments, or raise: for lack of memory, when the crypto library fails, or when it does not take data of that
size. -/
theorem C86_python_calculate (h1 : 16 ≤ hb) (h2 : hb ≤ 64) (hC : Correct ch L) (kinds : Nat → Kind) (u : Kind → Bool) (al : Nat → Bool) (prog : List (PyOp × PyEnv)) (st : PyState (MixedMem L)) (hs : PyBuildStart st)
    (he : ∀ x ∈ prog, x.2.Ok ∧ x.1.AtMost (sizeLimit hb)) (rs : List PyResult) (st' : PyState (MixedMem L)) (hp : PyBuilds.program (.mixedHost hb ch L u al) kinds prog st = .ok (rs, st')) (j : Nat) (k : Kind) (e : PyEnv) :
    (∀ b : List Byte, prog[j]? = some (.calculate k (some (.bytes b)) true, e) → b.length < 2 ^ 61 →
      rs[j]? = some (.bytes (k.std.digest b)) ∨ rs[j]? = some (.raised .io) ∧ ((∃ n, al n = false) ∨ ¬ NeverFails ch L k ∨ (ch k).limit < b.length)) ∧
    ∀ key b : List Byte, prog[j]? = some (.calculateHmac k (some (.bytes key, .bytes b)) true, e) → key.length < 2 ^ 61 → k.blockSize + b.length < 2 ^ 61 →
      rs[j]? = some (.bytes (hmac k.blockSize k.std.digest key b)) ∨ rs[j]? = some (.raised .io) ∧ ((∃ n, al n = false) ∨ ¬ NeverFails ch L k ∨ (ch k).limit < b.length ∨ (ch k).limit < key.length) := by
  rw [C86_python h1 h2 hC kinds u al prog st hs he] at hp
  have he' : ∀ x ∈ prog, x.2.Ok := fun x hx => (he x hx).1
  exact ⟨fun b hj hb => C76_calculate hC kinds u al prog st hs he' rs st' hp j k b e hj hb, fun key b hj hk hb => C76_hmac hC kinds u al prog st hs he' rs st' hp j k key b e hj hk hb⟩

/-! ### The fuzz targets -/

theorem hostBFuzzOne_ok (h1 : 16 ≤ hb) (h2 : hb ≤ 64) (B : Backend) (k : Kind) (Lb : Library) (hT : Tame Lb k.hashSize) (x : (Option Nat × Nat) × OEnv × List Byte) (s : OSt Lb.State) (h : FuzzInputB k s.caller.length x) :
    ∃ s', hostBFuzzOne hb B k Lb x.2.1 x.2.2 x.1.1 x.1.2 s = .ok (0, s') ∧ s'.caller = s.caller ∧ s'.ctxs.live = s.ctxs.live ∧ s'.blocks = s.blocks := by
  obtain ⟨⟨data, size⟩, env, hash⟩ := x
  obtain ⟨g1, g3⟩ := h
  dsimp only at g1 g3 ⊢
  obtain ⟨ha, hh⟩ := fuzz_areas g1 g3
  obtain ⟨r, s', e, -, -, -, -, hl, hbl, -, -, w⟩ := C85_calculate_result h1 h2 B k Lb hT env data size (some s.caller.length) k.hashSize { s with caller := s.caller ++ hash } ha hh
  unfold hostBFuzzOne
  rw [e]
  exact ⟨_, rfl, take_of_prefix fun j hj => w j (by rintro o ⟨⟩; exact .inl hj), hl, hbl⟩

/-- C86. The fuzz targets in every build over a crypto library whose calls may fail, on such a host: for every sequence of inputs of any sizes (also NULL), every outcome of allocations and every content of uninitialised memory a target
has no undefined behaviour, ends, returns 0 each time as the engine requires, does not change the inputs or other memory of the engine, and leaves nothing allocated, neither of its own nor of the library. -/
theorem C86_fuzz_target (h1 : 16 ≤ hb) (h2 : hb ≤ 64) (B : Backend) (k : Kind) (Lb : Library) (hT : Tame Lb k.hashSize) : ∀ (inputs : List ((Option Nat × Nat) × OEnv × List Byte)) (s : OSt Lb.State),
    (∀ x ∈ inputs, FuzzInputB k s.caller.length x) →
    ∃ s', hostBFuzzRun hb B k Lb inputs s = .ok (List.replicate inputs.length 0, s') ∧ s'.caller = s.caller ∧ s'.ctxs.live = s.ctxs.live ∧ s'.blocks = s.blocks
  | [], s, _ => ⟨s, rfl, rfl, rfl, rfl⟩
  | x :: t, s, h => by
    obtain ⟨s₁, e₁, c₁, l₁, n₁⟩ := hostBFuzzOne_ok h1 h2 B k Lb hT x s (h x (List.mem_cons_self ..))
    obtain ⟨s₂, e₂, c₂, l₂, n₂⟩ := C86_fuzz_target h1 h2 B k Lb hT t s₁ (fun y hy => c₁ ▸ h y (List.mem_cons_of_mem _ hy))
    refine ⟨s₂, ?_, c₂.trans c₁, l₂.trans l₁, n₂.trans n₁⟩
    obtain ⟨⟨data, size⟩, env, hash⟩ := x
    unfold hostBFuzzRun
    dsimp only at e₁
    rw [e₁]
    show (hostBFuzzRun hb B k Lb t s₁).bind _ = _
    rw [e₂]
    rfl

/-- C86. What a target computes on such a host is the real thing: with a library that is right and whose calls succeed, an input of a size that the build takes there is hashed completely. -/
theorem C86_fuzz_hashes (h1 : 16 ≤ hb) (h2 : hb ≤ 64) (B : Backend) (k : Kind) (Lb : Library) (Rep : Lb.State → List Byte → Prop) (hL : Contract Lb k Rep) (hr : Reliable Lb) (hT : Tame Lb k.hashSize) (env : OEnv) (hash : List Byte)
    (s : OSt Lb.State) (p size : Nat) (hh : hash.length = k.hashSize) (hp : p + size ≤ s.caller.length) (hs : size ≤ updateLimit hb B) (hlen : size < 2 ^ 61) (hal : env.allocOk s.ctxs.count = true) :
    ∃ s', hostOCalculate hb B Lb k.hashSize env (some p) size (some s.caller.length) k.hashSize { s with caller := s.caller ++ hash } = .ok (1, s') ∧
      s'.caller = s.caller ++ k.std.digest (slice s.caller p size) := by
  rw [← updateLimit_eq] at hs
  have hm := (hostMaxUpdate_le h1 h2 B).2
  obtain ⟨s', e, h⟩ := C82_fuzz_hashes B k Lb Rep hL hr hT env hash s p size hh hp (Nat.le_trans hs hm) hlen hal
  exact ⟨s', by rw [hostOCalculate_eq h1 h2, clipTo_le hs, clip_digest B h1 h2]; exact e, h⟩

/-! ### Builds that configure leads to -/

/-- C86. Whatever configure decides, on such a host: interleaved contexts of any algorithms never return a wrong digest. -/
theorem C86_configured_contexts (S : System) (o : BuildOptions) (h : (configure S o).isSome = true) (h1 : 16 ≤ hb) (h2 : hb ≤ 64) :
    ∃ ch, Configured S o ch ∧ ∀ L : Kind → Library, Correct ch L → ∀ T : Tool, (∀ k n, Kind.Junk k (T.scr k n)) → ∀ (kinds : Nat → Kind) (calls : List (Nat × ApiCall)),
      (∀ c ∈ calls, HostCallOk hb (ch (kinds c.1)) c.2) → ∀ m : MixedMem L, m.Wf →
      ∃ rs slots' m', Builds.multi (.mixedHost hb ch L T) kinds 0 calls (fun _ => none) m = .ok (rs, slots', m') ∧ rs.length = calls.length ∧
        ∀ j i out size r msg, calls[j]? = some (i, .finalize (some out) size) → rs[j]? = some r → r.code = 1 → accepted (historyOf i ((calls.zip rs).take j)) none = some msg → msg.length < 2 ^ 61 →
          r.out = some ((kinds i).std.digest msg ++ out.drop (kinds i).hashSize) := by
  obtain ⟨ch, hc⟩ := configured_build S o h
  exact ⟨ch, hc, fun L hL T hT kinds calls hv m hm => C86_no_wrong_digest h1 h2 hL T hT kinds calls hv m hm⟩

/-- C86. Whatever configure decides, on such a host: a Python program of any calls has no undefined behaviour, and what `finalize` returns is the standard digest of what the object was given. -/
theorem C86_configured_python (S : System) (o : BuildOptions) (h : (configure S o).isSome = true) (h1 : 16 ≤ hb) (h2 : hb ≤ 64) :
    ∃ ch, Configured S o ch ∧ ∀ L : Kind → Library, Correct ch L → ∀ (kinds : Nat → Kind) (u : Kind → Bool) (al : Nat → Bool) (prog : List (PyOp × PyEnv)), (∀ x ∈ prog, x.2.Ok ∧ x.1.AtMost (sizeLimit hb)) →
      ∀ st : PyState (MixedMem L), PyBuildStart st → ∃ rs st', PyBuilds.program (.mixedHost hb ch L u al) kinds prog st = .ok (rs, st') ∧ rs.length = prog.length ∧
        ∀ j i e d m, prog[j]? = some (.finalize i true, e) → rs[j]? = some (.bytes d) → pyMessage i ((pyTrace prog rs).take j) = some m → m.length < 2 ^ 61 → d = (kinds i).std.digest m := by
  obtain ⟨ch, hc⟩ := configured_build S o h
  refine ⟨ch, hc, fun L hL kinds u al prog he st hs => ?_⟩
  obtain ⟨rs, st', -, e, hlen, -⟩ := C86_python_safe h1 h2 hL kinds u al prog st hs he
  exact ⟨rs, st', e, hlen, fun j i e' d m hj hr hm hl => (C86_python_digest h1 h2 hL kinds u al prog st hs he rs st' e j i e' hj m hm hl).1 d hr⟩

example := C86_configured_contexts (hb := 32) openssl3 noOptions systems_configured.1 (by decide) (by decide)

example := C86_configured_python (hb := 32) openssl3 noOptions systems_configured.1 (by decide) (by decide)

/-! ### Examples -/

/-- The program of C75, and calls that a 32-bit host refuses on account of their sizes. -/
def calls86 : List (Nat × ApiCall) := [(0, .init), (3, .init), (3, .update (some [4]) (2 ^ 31)), (0, .update (some [1, 2, 3]) 3), (3, .update (some [5]) 1), (0, .update (some [7]) (2 ^ 40)), (0, .finalize (some (List.replicate 40 0)) 33),
  (3, .finalize (some (List.replicate 20 0)) 20)]

theorem calls86_ok : ∀ c ∈ calls86, HostCallOk 32 (choice0 (kinds1 c.1)) c.2 := by
  intro c hc
  simp only [calls86, List.mem_cons, List.not_mem_nil, or_false] at hc
  rcases hc with rfl | rfl | rfl | rfl | rfl | rfl | rfl | rfl <;> simp [kinds1, choice0, HostCallOk, HostValid, BuildValid, sizeLimit, updateLimit]

example := C86_no_wrong_digest (hb := 32) (by decide) (by decide) failing_correct env1.tool env1_ok.tool.scr kinds1 calls86 calls86_ok (mixed0 _).mem (mixed0_wf _)

example := C86_same_as_64 (hb := 32) (by decide) (by decide) failing_correct env1.tool env1_ok.tool.scr kinds1 calls2 calls2_valid (by
  intro c hc
  simp only [calls2, List.mem_cons, List.not_mem_nil, or_false] at hc
  rcases hc with rfl | rfl | rfl | rfl | rfl | rfl | rfl | rfl | rfl | rfl | rfl | rfl | rfl | rfl <;> simp [kinds1, choice0, WithinChoice, WithinLimit, WithinBuild, sizeLimit, updateLimit, outputLimit]) (mixed0 _).mem (mixed0_wf _)

example := C86_interleaving (hb := 32) (by decide) (by decide) exact_correct env1.tool env1_ok.tool.scr kinds1 calls86 calls86_ok (mixed0 _).mem (mixed0_wf _) 2 (fun _ => exact_reliable _) (by
  intro c hc
  simp only [calls86, List.mem_cons, List.not_mem_nil, or_false] at hc
  rcases hc with rfl | rfl | rfl | rfl | rfl | rfl | rfl | rfl <;> intro h <;> exact absurd h (by decide)) (by decide)

/-- Variable 1 (MD5) hashes a message, while calls on the others are refused. -/
example := C86_digest (hb := 32) (by decide) (by decide) exact_correct env1.tool env1_ok.tool.scr (fun _ => rfl) kinds1 ((1, .init) :: (calls86 ++ [(1, .update (some [1, 2]) 2), (1, .finalize (some (List.replicate 16 0)) 16)])) (by
  intro c hc
  simp only [List.mem_cons, List.mem_append, List.not_mem_nil, or_false] at hc
  rcases hc with rfl | hc | rfl | rfl
  · trivial
  · exact calls86_ok c hc
  · simp [kinds1, choice0, HostCallOk, BuildValid]
  · simp [kinds1, choice0, HostCallOk, BuildValid]) (mixed0 _).mem (mixed0_wf _) 1 (fun _ => exact_reliable _) [[1, 2]] (List.replicate 16 0) 16 rfl (by decide) (by decide) (by decide)

example := C86_released (hb := 32) (by decide) (by decide) failing_correct env1.tool env1_ok.tool.scr kinds1 calls86 calls86_ok (mixed0 _).mem (mixed0_wf _) [0, 3] (by decide)

theorem pyProg0_host : ∀ x ∈ pyProg0, x.2.Ok ∧ x.1.AtMost (sizeLimit 32) := by
  intro x hx
  refine ⟨pyProg0_ok x hx, ?_⟩
  simp only [pyProg0, List.mem_cons, List.not_mem_nil, or_false] at hx
  rcases hx with rfl | rfl | rfl | rfl | rfl | rfl | rfl | rfl | rfl | rfl | rfl | rfl <;> simp [PyOp.AtMost, PyArg.AtMost, sizeLimit]

example (u : Kind → Bool) (al : Nat → Bool) : PyBuilds.program (.mixedHost 32 choice0 failingLibrary u al) pyKinds0 pyProg0 (pyBuild0 _) = PyBuilds.program (.mixed choice0 failingLibrary u al) pyKinds0 pyProg0 (pyBuild0 _) :=
  C86_python (by decide) (by decide) failing_correct pyKinds0 u al pyProg0 _ (pyBuild0_start _) pyProg0_host

example (u : Kind → Bool) : ∃ rs st', PyBuilds.program (.mixedHost 32 choice0 exactLibrary u (fun _ => true)) pyKinds0 pyProg0 (pyBuild0 _) = .ok (rs, st') ∧ rs[6]? = some (.bytes (Kind.md5.std.digest [1, 2, 3, 4])) := by
  obtain ⟨st', e⟩ := pyProg0_mixed pyKinds0 u
  rw [← C86_python (hb := 32) (by decide) (by decide) exact_correct pyKinds0 u _ pyProg0 _ (pyBuild0_start _) pyProg0_host] at e
  exact ⟨_, st', e, (C86_python_digest (by decide) (by decide) exact_correct _ u _ pyProg0 _ (pyBuild0_start _) pyProg0_host _ st' e 6 0 pyEnv0 rfl [1, 2, 3, 4] (by simp [pyMessage, pyTrace, pyProg0, pyMessageNext]) (by decide)).2
    (fun _ => exact_reliable _)⟩

example (u : Kind → Bool) (al : Nat → Bool) : ∃ rs st', PyBuilds.program (.mixedHost 32 choice0 failingLibrary u al) pyKinds0 pyProg0 (pyBuild0 _) = .ok (rs, st') ∧
    (rs[9]? = some (.bytes (Kind.sha1.std.digest [5, 6])) ∨ rs[9]? = some (.raised .io) ∧ ((∃ n, al n = false) ∨ ¬ NeverFails choice0 failingLibrary .sha1 ∨ (choice0 .sha1).limit < 2)) ∧
    (rs[10]? = some (.bytes (hmac Kind.md5.blockSize Kind.md5.std.digest [5, 6] [])) ∨ rs[10]? = some (.raised .io) ∧
      ((∃ n, al n = false) ∨ ¬ NeverFails choice0 failingLibrary .md5 ∨ (choice0 .md5).limit < 0 ∨ (choice0 .md5).limit < 2)) := by
  obtain ⟨rs, st', o, e, -⟩ := C86_python_safe (hb := 32) (by decide) (by decide) failing_correct pyKinds0 u al pyProg0 (pyBuild0 _) (pyBuild0_start _) pyProg0_host
  exact ⟨rs, st', e, (C86_python_calculate (by decide) (by decide) failing_correct _ u al pyProg0 _ (pyBuild0_start _) pyProg0_host rs st' e 9 .sha1 pyEnv0).1 [5, 6] rfl (by decide),
    (C86_python_calculate (by decide) (by decide) failing_correct _ u al pyProg0 _ (pyBuild0_start _) pyProg0_host rs st' e 10 .md5 pyEnv0).2 [5, 6] [] rfl (by decide) (by decide)⟩

/-- Three inputs: NULL, an empty one, and one of 90 bytes for which the allocation fails; with a library that fails. -/
example (B : Backend) (k : Kind) := C86_fuzz_target (hb := 32) (by decide) (by decide) B k (brokenLibrary k 10) (broken_tame k 10)
  [((none, 0), ⟨fun _ => true, fun _ _ => 1⟩, List.replicate k.hashSize 1), ((some 4, 0), ⟨fun _ => true, fun _ _ => 1⟩, List.replicate k.hashSize 2),
    ((some 10, 90), ⟨fun _ => false, fun _ _ => 1⟩, List.replicate k.hashSize 3)] (ost1 _ []) (by
  intro x hx
  simp only [List.mem_cons, List.not_mem_nil, or_false] at hx
  rcases hx with rfl | rfl | rfl <;> refine ⟨?_, by simp⟩ <;> rintro p ⟨⟩ <;> simp [ost1, -List.reduceReplicate])

example (B : Backend) (k : Kind) := C86_fuzz_hashes (hb := 32) (by decide) (by decide) B k (exactLibrary k) _ (exact_contract k) (exact_reliable k) (exact_tame k) ⟨fun _ => true, fun _ _ => 1⟩ (List.replicate k.hashSize 1) (ost1 _ []) 10 90
  (by simp) (by simp [ost1, -List.reduceReplicate]) (by rcases B with (_ | _) | _ | _ <;> decide) (by decide) rfl

end Props

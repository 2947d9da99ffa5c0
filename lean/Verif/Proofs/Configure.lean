import Verif.Model.Configure
/-! The result of `configure` in closed form. -/

namespace Model.Configure

open Spec (Kind)

/-- The functions that make and free an EVP context are found. -/
def ctxComplete (S : System) : Bool :=
  if S.func .ctxNew then S.func .ctxFree else S.func .ctxInit && S.func .ctxCleanup && S.func .removeThreadState

/-- The functions that start an EVP digest are found. -/
def initComplete (S : System) : Bool :=
  if S.func .digestInitEx2 then S.func .ctxReset && S.func .mdFetch && S.func .mdFree else S.func .digestInitEx

/-- Everything the EVP code needs is found. -/
def evpComplete (S : System) : Bool := ctxComplete S && initComplete S && S.func .digestUpdate && S.func .digestFinalEx

/-- Is the library accepted, when it is looked for? -/
def libFound (S : System) (o : BuildOptions) : Bool :=
  (o.openssl = .auto && S.pkgConfig = some true) || (S.header .evp && S.zlib)

theorem cfg_needEvpMd (S : System) (f : Fn) (s : Shell) : needEvpMd S f s = { s with evpMd := if S.func f then s.evpMd else .no } := by
  unfold needEvpMd
  cases S.func f <;> rfl

theorem cfg_checkEvpContext (S : System) (s : Shell) (hi : s.ctxInit = false ∨ s.ctxInit = (!S.func .ctxNew && S.func .ctxInit))
    (hc : s.ctxCleanup = false ∨ s.ctxCleanup = (!S.func .ctxNew && S.func .ctxCleanup)) :
    checkEvpContext S s = { s with evpMd := if ctxComplete S then s.evpMd else .no, ctxInit := !S.func .ctxNew && S.func .ctxInit, ctxCleanup := !S.func .ctxNew && S.func .ctxCleanup } := by
  unfold checkEvpContext ctxComplete
  cases h : S.func .ctxNew
  · simp only [cfg_needEvpMd]
    cases S.func .ctxInit <;> cases S.func .ctxCleanup <;> cases S.func .removeThreadState <;> rfl
  · have h1 : s.ctxInit = false := by simpa [h] using hi
    have h2 : s.ctxCleanup = false := by simpa [h] using hc
    clear hi hc
    obtain ⟨_, _, _, _, _, _, _, _, _, _, _, _, _⟩ := s
    subst h1 h2
    simp [cfg_needEvpMd]

theorem cfg_checkEvpInit (S : System) (s : Shell) : checkEvpInit S s = { s with evpMd := if initComplete S then s.evpMd else .no } := by
  unfold checkEvpInit initComplete
  simp only [cfg_needEvpMd]
  cases S.func .digestInitEx2
  · rfl
  · cases S.func .ctxReset <;> cases S.func .mdFetch <;> cases S.func .mdFree <;> rfl

theorem cfg_checkOpensslEvpMd (S : System) (o : BuildOptions) (s : Shell) (hi : s.ctxInit = false ∨ s.ctxInit = (!S.func .ctxNew && S.func .ctxInit))
    (hc : s.ctxCleanup = false ∨ s.ctxCleanup = (!S.func .ctxNew && S.func .ctxCleanup)) :
    checkOpensslEvpMd S o s = if o.evpMd = .yes ∧ evpComplete S = false then none else
      some { s with evpMd := if evpComplete S then .yes else .no, ctxInit := !S.func .ctxNew && S.func .ctxInit, ctxCleanup := !S.func .ctxNew && S.func .ctxCleanup,
                    haveCtxInit := (!S.func .ctxNew && S.func .ctxInit) || s.haveCtxInit, haveCtxCleanup := (!S.func .ctxNew && S.func .ctxCleanup) || s.haveCtxCleanup,
                    haveInitEx2 := S.func .digestInitEx2 || s.haveInitEx2 } := by
  unfold checkOpensslEvpMd evpComplete
  rw [cfg_checkEvpContext S { s with evpMd := .yes } hi hc, cfg_checkEvpInit, cfg_needEvpMd, cfg_needEvpMd]
  cases ctxComplete S <;> cases initComplete S <;> cases S.func .digestUpdate <;> cases S.func .digestFinalEx <;> simp [defineEvp]

/-- EVP is used for the algorithm. -/
def viaEvp (S : System) (k : Kind) : Bool := evpComplete S && S.func (.evp k)

/-- The direct functions of the algorithm are found. -/
def directFound (S : System) (k : Kind) : Bool := S.header (headerOf k) && S.func (.init k) && S.func (.update k) && S.func (.final k)

/-- The shell variable of the algorithm if the library is used. -/
def foundOf (S : System) (k : Kind) : Found := if viaEvp S k then .libcryptoEvp else if directFound S k then .libcrypto else .no

theorem cfg_needAlg (S : System) (k : Kind) (f : Fn) (s : Shell) :
    needAlg S k f s = { s with alg := Function.update s.alg k (if S.func f then s.alg k else .no) } := by
  unfold needAlg
  cases S.func f <;> simp

theorem cfg_checkHeader (S : System) (h : Header) (s : Shell) :
    checkHeader S h s = { s with haveHeader := Function.update s.haveHeader h (S.header h || s.haveHeader h) } := by
  unfold checkHeader
  cases S.header h <;> simp

theorem cfg_checkOpensslAlg (S : System) (k : Kind) (s : Shell) (hl : s.libcrypto ≠ .no) :
    checkOpensslAlg S k s = { s with alg := Function.update s.alg k (if directFound S k then .libcrypto else .no),
                                     haveHeader := Function.update s.haveHeader (headerOf k) (S.header (headerOf k) || s.haveHeader (headerOf k)) } := by
  unfold checkOpensslAlg directFound
  simp only [cfg_checkHeader, cfg_needAlg]
  cases S.header (headerOf k)
  · simp [hl]
  · cases S.func (.init k) <;> cases S.func (.update k) <;> cases S.func (.final k) <;> simp [hl]

/-- The variables and macros of the EVP functions after their check. -/
def mdDone (S : System) (s : Shell) : Shell :=
  { s with evpMd := if evpComplete S then .yes else .no, ctxInit := !S.func .ctxNew && S.func .ctxInit, ctxCleanup := !S.func .ctxNew && S.func .ctxCleanup,
           haveCtxInit := !S.func .ctxNew && S.func .ctxInit, haveCtxCleanup := !S.func .ctxNew && S.func .ctxCleanup, haveInitEx2 := S.func .digestInitEx2 }

/-- The variables and macros of an algorithm after its check. -/
def algDone (S : System) (k : Kind) (s : Shell) : Shell :=
  { s with alg := Function.update s.alg k (foundOf S k), haveEvp := Function.update s.haveEvp k (viaEvp S k || s.haveEvp k),
           haveHeader := Function.update s.haveHeader (headerOf k) ((!viaEvp S k && S.header (headerOf k)) || s.haveHeader (headerOf k)) }

theorem cfg_checkAlg_rest (S : System) (k : Kind) (s : Shell) (hl : s.libcrypto ≠ .no) (he : s.evpMd = if evpComplete S then .yes else .no) :
    (let s := { s with alg := Function.update s.alg k .no }
     let s := if s.evpMd = .yes then checkOpensslEvpAlg S k s else s
     (if s.alg k = .no then checkOpensslAlg S k s else s)) = algDone S k s := by
  cases hE : evpComplete S
  · simp only [hE] at he
    have e : s.evpMd ≠ .yes := by rw [he]; decide
    simp [e, cfg_checkOpensslAlg, hl, algDone, foundOf, viaEvp, hE]
  · simp only [hE, if_true] at he
    cases hf : S.func (.evp k)
    · simp [he, checkOpensslEvpAlg, hf, cfg_checkOpensslAlg, hl, algDone, foundOf, viaEvp, hE]
    · simp [he, checkOpensslEvpAlg, hf, algDone, foundOf, viaEvp, hE]

/-- The library is accepted and the EVP functions have been looked for. -/
structure Done (S : System) (s : Shell) : Prop where
  lib : s.libcrypto = .yes
  evp : s.evp = .yes
  done : mdDone S s = s

theorem cfg_done_algDone (S : System) (k : Kind) (s : Shell) (h : Done S s) : Done S (algDone S k s) :=
  ⟨h.lib, h.evp, by
    have e := h.done
    have e1 := congrArg Shell.evpMd e
    have e2 := congrArg Shell.ctxInit e
    have e3 := congrArg Shell.ctxCleanup e
    have e4 := congrArg Shell.haveCtxInit e
    have e5 := congrArg Shell.haveCtxCleanup e
    have e6 := congrArg Shell.haveInitEx2 e
    simp only [mdDone] at e1 e2 e3 e4 e5 e6
    simp only [mdDone, algDone]
    rw [e1, e2, e6]
    simp only [Shell.mk.injEq, true_and, and_true]
    exact ⟨e3, by rw [← e2]; exact e4, e5⟩⟩

theorem cfg_md_of_done (S : System) (o : BuildOptions) (s : Shell) (h : Done S s) (hs : ¬(o.evpMd = .yes ∧ evpComplete S = false)) : checkOpensslEvpMd S o s = some s := by
  have e := h.done
  have e2 := congrArg Shell.ctxInit e
  have e3 := congrArg Shell.ctxCleanup e
  have e4 := congrArg Shell.haveCtxInit e
  have e5 := congrArg Shell.haveCtxCleanup e
  have e6 := congrArg Shell.haveInitEx2 e
  simp only [mdDone] at e2 e3 e4 e5 e6
  rw [cfg_checkOpensslEvpMd S o s (.inr e2.symm) (.inr e3.symm), if_neg hs]
  conv_rhs => rw [← e, mdDone]
  rw [← e4, ← e5, ← e6]
  simp

theorem cfg_checkAlg_done (S : System) (o : BuildOptions) (k : Kind) (s : Shell) (h : Done S s) (hs : ¬(o.evpMd = .yes ∧ evpComplete S = false)) :
    checkAlg S o k s = some (algDone S k s) := by
  have he : s.evpMd = if evpComplete S then .yes else .no := (congrArg Shell.evpMd h.done).symm
  have hd : Done S { s with alg := Function.update s.alg k .no } := ⟨h.lib, h.evp, by
    have e := h.done
    unfold mdDone at e ⊢
    exact congrArg (fun t : Shell => { t with alg := Function.update t.alg k .no }) e⟩
  rw [← cfg_checkAlg_rest S k s (by rw [h.lib]; decide) he]
  unfold checkAlg
  by_cases hc : s.evp = .yes ∧ (k = .md5 ∨ o.evpMd ≠ .no) ∧ s.evpMd ≠ .yes
  · simp only [if_pos hc, cfg_md_of_done S o _ hd hs, Option.bind_eq_bind, Option.bind_some, Option.pure_def]
  · simp only [if_neg hc, Option.bind_eq_bind, Option.bind_some, Option.pure_def]

theorem cfg_checkAlg_fresh (S : System) (o : BuildOptions) (k : Kind) (hk : k = .md5) (s : Shell) (hl : s.libcrypto = .yes) (he : s.evp = .yes) (hm : s.evpMd = .unset)
    (h2 : s.ctxInit = false) (h3 : s.ctxCleanup = false) (h4 : s.haveCtxInit = false) (h5 : s.haveCtxCleanup = false) (h6 : s.haveInitEx2 = false) :
    checkAlg S o k s = if o.evpMd = .yes ∧ evpComplete S = false then none else some (algDone S k (mdDone S s)) := by
  unfold checkAlg
  have hc : s.evp = .yes ∧ (k = .md5 ∨ o.evpMd ≠ .no) ∧ s.evpMd ≠ .yes := ⟨he, .inl hk, by rw [hm]; decide⟩
  have e : checkOpensslEvpMd S o { s with alg := Function.update s.alg k .no } =
      if o.evpMd = .yes ∧ evpComplete S = false then none else some (mdDone S { s with alg := Function.update s.alg k .no }) := by
    rw [cfg_checkOpensslEvpMd S o { s with alg := Function.update s.alg k .no } (.inl h2) (.inl h3)]
    simp only [h4, h5, h6, Bool.or_false]
    rfl
  simp only [if_pos hc, e]
  by_cases hs : o.evpMd = .yes ∧ evpComplete S = false
  · simp only [if_pos hs]
    rfl
  · rw [if_neg hs, if_neg hs, ← cfg_checkAlg_rest S k (mdDone S s) (by show s.libcrypto ≠ .no; rw [hl]; decide) rfl]
    rfl

/-- The five checks in a build with the library. -/
def algsDone (S : System) (s : Shell) : Shell :=
  algDone S .sha512 (algDone S .sha256 (algDone S .sha224 (algDone S .sha1 (algDone S .md5 (mdDone S s)))))

/-- What is in config.h and the variables after looking for the library, if it is accepted. -/
def libShell : Shell :=
  ⟨.yes, .yes, .unset, fun _ => .unset, false, false, true, Function.update (fun _ => false) .evp true, false, false, false, fun _ => false, true⟩

/-- Without the library. -/
def noShell (evp : Sh) (h : Bool) : Shell :=
  ⟨.no, evp, .unset, fun _ => .unset, false, false, false, Function.update (fun _ => false) .evp h, false, false, false, fun _ => false, false⟩

/-- With static executables the library is not looked for. -/
def staticShell : Shell := { start with pc := true }

theorem cfg_upd : Function.update (fun _ : Header => false) .evp false = fun _ => false := by funext h; cases h <;> rfl

theorem cfg_checkEnable (S : System) (o : BuildOptions) :
    (checkEnable S o start).bind (checkEnable S o) =
      if o.staticExecutables then some staticShell
      else if !o.sharedLibs || o.openssl = .no then some (noShell .unset false)
      else if o.openssl = .dir false then none
      else if libFound S o then some libShell
      else some (noShell .no (S.header .evp)) := by
  obtain ⟨oo, oe, os, ox⟩ := o
  cases ox
  · cases os
    · simp [checkEnable, checkLib, noShell, start]
    · rcases oo with _ | _ | b
      · simp [checkEnable, checkLib, noShell, start]
      · rcases hp : S.pkgConfig with _ | p
        · cases hh : S.header .evp <;> cases hz : S.zlib <;>
            simp [checkEnable, checkLib, noShell, start, libFound, libShell, hp, hh, hz, checkOpensslEvp, checkHeader]
        · cases p <;> cases hh : S.header .evp <;> cases hz : S.zlib <;>
            simp [checkEnable, checkLib, noShell, start, libFound, libShell, hp, hh, hz, checkOpensslEvp, checkHeader]
      · cases b
        · simp [checkEnable, checkLib]
        · cases hh : S.header .evp <;> cases hz : S.zlib <;>
            simp [checkEnable, checkLib, noShell, start, libFound, libShell, hh, hz, checkOpensslEvp, checkHeader]
  · rfl

theorem cfg_checkAlg_static (S : System) (o : BuildOptions) (k : Kind) (s : Shell) (hl : s.libcrypto = .unset) (he : s.evp = .unset) (hm : s.evpMd = .unset) :
    checkAlg S o k s = some { s with alg := Function.update s.alg k (if directFound S k then .libcrypto else .no),
                                     haveHeader := Function.update s.haveHeader (headerOf k) (S.header (headerOf k) || s.haveHeader (headerOf k)) } := by
  have hn : s.libcrypto ≠ .no := by rw [hl]; decide
  unfold checkAlg
  simp [he, hm, cfg_checkOpensslAlg, hn]

/-- The result with static executables. -/
def staticDone (S : System) : Shell :=
  { staticShell with alg := fun k => if directFound S k then .libcrypto else .no,
                     haveHeader := fun h => match h with | .evp => false | .md5 => S.header .md5 | .sha => S.header .sha }

/-- Is some SHA algorithm without EVP? -/
def someShaDirect (S : System) : Bool := !(viaEvp S .sha1 && viaEvp S .sha224 && viaEvp S .sha256 && viaEvp S .sha512)

/-- The result with the library. -/
def libDone (S : System) : Shell :=
  { mdDone S libShell with
    alg := foundOf S, haveEvp := viaEvp S,
    haveHeader := fun h => match h with | .evp => true | .md5 => !viaEvp S .md5 && S.header .md5 | .sha => someShaDirect S && S.header .sha }

theorem cfg_algsDone (S : System) : algsDone S libShell = libDone S := by
  unfold algsDone libDone
  simp only [algDone]
  simp only [Shell.mk.injEq, true_and, and_true]
  refine ⟨?_, ?_, ?_⟩
  · funext k
    cases k <;> simp [Function.update]
  · funext h
    cases h
    · simp [Function.update, headerOf, mdDone, libShell]
    · simp [Function.update, headerOf, mdDone, libShell]
    · simp only [Function.update, headerOf, mdDone, libShell, someShaDirect]
      cases viaEvp S .sha1 <;> cases viaEvp S .sha224 <;> cases viaEvp S .sha256 <;> cases viaEvp S .sha512 <;> cases S.header .sha <;> rfl
  · funext k
    cases k <;> simp [Function.update, mdDone, libShell]

/-- The result of configure. -/
theorem cfg_configure (S : System) (o : BuildOptions) :
    configure S o =
      if o.staticExecutables then some (staticDone S)
      else if !o.sharedLibs || o.openssl = .no then some (noShell .unset false)
      else if o.openssl = .dir false then none
      else if libFound S o then (if o.evpMd = .yes ∧ evpComplete S = false then none else some (libDone S))
      else some (noShell .no (S.header .evp)) := by
  have e := cfg_checkEnable S o
  have hc : configure S o = ((checkEnable S o start).bind (checkEnable S o)).bind fun s =>
      if s.libcrypto ≠ .no then do
        let s ← checkAlg S o .md5 s
        let s ← checkAlg S o .sha1 s
        let s ← checkAlg S o .sha224 s
        let s ← checkAlg S o .sha256 s
        checkAlg S o .sha512 s
      else some s := by
    unfold configure checkLocal
    cases checkEnable S o start <;> rfl
  rw [hc, e]
  split
  · simp only [Option.bind_some]
    rw [if_pos (by decide), cfg_checkAlg_static S o .md5 staticShell rfl rfl rfl]
    simp only [Option.bind_eq_bind, Option.bind_some]
    rw [cfg_checkAlg_static S o .sha1 _ rfl rfl rfl, Option.bind_some, cfg_checkAlg_static S o .sha224 _ rfl rfl rfl, Option.bind_some,
      cfg_checkAlg_static S o .sha256 _ rfl rfl rfl, Option.bind_some, cfg_checkAlg_static S o .sha512 _ rfl rfl rfl]
    refine congrArg some ?_
    unfold staticDone
    simp only [Shell.mk.injEq, true_and, and_true]
    constructor
    · funext k
      cases k <;> simp [Function.update]
    · funext h
      cases h <;> simp [Function.update, headerOf, staticShell, start]
  split
  · rfl
  split
  · rfl
  split
  · simp only [Option.bind_some]
    rw [if_pos (by decide), cfg_checkAlg_fresh S o .md5 rfl libShell rfl rfl rfl rfl rfl rfl rfl rfl]
    split
    · rfl
    · rename_i hs
      have d0 : Done S (mdDone S libShell) := ⟨rfl, rfl, rfl⟩
      have d1 := cfg_done_algDone S .md5 _ d0
      have d2 := cfg_done_algDone S .sha1 _ d1
      have d3 := cfg_done_algDone S .sha224 _ d2
      have d4 := cfg_done_algDone S .sha256 _ d3
      simp only [Option.bind_eq_bind, Option.bind_some, cfg_checkAlg_done S o _ _ d1 hs, cfg_checkAlg_done S o _ _ d2 hs, cfg_checkAlg_done S o _ _ d3 hs, cfg_checkAlg_done S o _ _ d4 hs]
      rw [← cfg_algsDone]
      rfl
  · rfl

end Model.Configure

import Verif.SimBase

set_option autoImplicit false

/-!
# Relating reference semantics and machine: variables, bindings, closures
-/

namespace Minim.Jit

open Minim.Sx Minim.Core

/-! ## Variables -/

theorem read_sim {e0 : Nat} {ρ : REnv} {σ : RS} {s : St} {x : Sym} {v : RV} (h : SRel e0 σ s) (hl : lookupR ρ σ x = .ok v) :
    ∃ w, s.read (locOf e0 ρ x) = some w ∧ VR e0 v w ∧ w ≠ .unbound := by
  have key : ∀ u, (match ρ x with | some c => σ.cells[c]? | none => σ.globs x) = some u → ∃ w, s.read (locOf e0 ρ x) = some w ∧ VR e0 u w := by
    intro u hu
    rw [locOf]
    cases hρ : ρ x with
    | some c =>
      rw [hρ] at hu
      exact Forall₂.get h.cells hu
    | none =>
      rw [hρ] at hu
      have hg := h.globs x
      rw [show σ.globs x = some u from hu] at hg
      simp only [St.read]
      cases hs : s.globs e0 x with
      | none => rw [hs] at hg; exact hg.elim
      | some w => rw [hs] at hg; exact ⟨w, rfl, hg⟩
  rw [lookupR] at hl
  split at hl
  · cases hl
  · cases hl
  next u hne hu =>
    cases hl
    obtain ⟨w, h1, h2⟩ := key _ hu
    exact ⟨w, h1, h2, fun hw => hne (h2.unbound_iff.1 hw)⟩

theorem setGlob_sim {e0 : Nat} {σ : RS} {s : St} (h : SRel e0 σ s) {x : Sym} {v : RV} {w : MV} (hv : VR e0 v w) :
    SRel e0 (σ.setGlob x v) { s with globs := setGlob s.globs e0 x w } := by
  refine ⟨h.tenv, h.cells, fun y => ?_⟩
  simp only [RS.setGlob, setGlob]
  by_cases hy : y = x
  · subst hy; simp only [if_pos, and_self]; exact hv
  · rw [if_neg hy, if_neg (fun c => hy c.2)]; exact h.globs y

theorem setGlob_unbound {e0 : Nat} {σ : RS} {s : St} (h : SRel e0 σ s) {x : Sym} (hx : s.globs e0 x = none) :
    SRel e0 σ { s with globs := setGlob s.globs e0 x .unbound } := by
  refine ⟨h.tenv, h.cells, fun y => ?_⟩
  simp only [setGlob]
  have hg := h.globs y
  by_cases hy : y = x
  · subst hy
    simp only [if_pos, and_self]
    rw [hx] at hg
    cases hr : σ.globs y with
    | none => exact trivial
    | some u => rw [hr] at hg; exact hg.elim
  · rw [if_neg (fun c => hy c.2)]; exact hg

theorem setGlobs_sim {e0 : Nat} : ∀ (xs : List Sym) {σ : RS} {s : St} {vs : List RV} {ws : List MV}, SRel e0 σ s → List.Forall₂ (VR e0) vs ws →
    ∃ g, s.bindGlobs e0 xs ws = { s with globs := g } ∧ SRel e0 (σ.setGlobs xs vs) (s.bindGlobs e0 xs ws)
  | [], σ, s, vs, ws, h, _ => by
    refine ⟨s.globs, by simp [St.bindGlobs], ?_⟩
    simpa [St.bindGlobs, RS.setGlobs] using h
  | x :: xs, σ, s, _, _, h, .nil => by
    refine ⟨s.globs, by simp [St.bindGlobs], ?_⟩
    simpa [St.bindGlobs, RS.setGlobs] using h
  | x :: xs, σ, s, _, _, h, .cons (l₁ := vs) (l₂ := ws) hv hr => by
    obtain ⟨g, h1, h2⟩ := setGlobs_sim xs (setGlob_sim h (x := x) hv) hr
    simp only [St.bindGlobs, RS.setGlobs]
    exact ⟨g, by rw [h1], h2⟩

theorem write_sim {e0 : Nat} {ρ : REnv} {σ σ' : RS} {s : St} {x : Sym} {v : RV} {w : MV} (h : SRel e0 σ s) (ha : assignR ρ σ x v = .ok σ')
    (hv : VR e0 v w) : SRel e0 σ' (s.write (locOf e0 ρ x) w) := by
  rw [assignR] at ha
  rw [locOf]
  cases hρ : ρ x with
  | some c =>
    rw [hρ] at ha
    simp only at ha ⊢
    split at ha
    · cases ha
      exact ⟨h.tenv, Forall₂.set h.cells hv c, h.globs⟩
    · cases ha
  | none =>
    rw [hρ] at ha
    simp only at ha ⊢
    split at ha
    · cases ha
    · cases ha
      exact setGlob_sim h hv

theorem write_fields (s : St) (l : Loc) (w : MV) : ∃ c g, s.write l w = { s with cells := c, globs := g } := by
  cases l with
  | glob e x => exact ⟨s.cells, _, rfl⟩
  | cell n => exact ⟨_, s.globs, rfl⟩

/-! ## Slots -/

/-- The environments after storing into a slot of one of them. -/
def putEnv (envs : List (List (Option Loc))) (env i : Nat) (l : Option Loc) : List (List (Option Loc)) :=
  match envs[env]? with
  | some f => envs.set env (f.set i l)
  | none => envs

theorem setSlot_eq (s : St) (i : Nat) (l : Option Loc) : s.setSlot i l = { s with envs := putEnv s.envs s.env i l } := by
  rw [St.setSlot, putEnv]
  cases s.envs[s.env]? <;> rfl

theorem bindSlot_eq (s : St) (i : Nat) (w : MV) :
    s.bindSlot i w = { s with envs := putEnv s.envs s.env i (some (.cell s.cells.length)), cells := s.cells ++ [w] } := by
  rw [St.bindSlot, setSlot_eq]

theorem putEnv_length (envs : List (List (Option Loc))) (env i : Nat) (l : Option Loc) : (putEnv envs env i l).length = envs.length := by
  rw [putEnv]
  cases envs[env]? <;> simp

theorem putEnv_ne {envs : List (List (Option Loc))} {env i j : Nat} {l : Option Loc} (h : j ≠ env) : (putEnv envs env i l)[j]? = envs[j]? := by
  rw [putEnv]
  cases envs[env]? with
  | none => rfl
  | some f => simp only; rw [List.getElem?_set_ne (fun e => h e.symm)]

theorem putEnv_own {envs : List (List (Option Loc))} {env i : Nat} {l : Option Loc} {f : List (Option Loc)} (h : envs[env]? = some f) :
    (putEnv envs env i l)[env]? = some (f.set i l) := by
  have hlt : env < envs.length := (List.getElem?_eq_some_iff.1 h).1
  rw [putEnv, h]
  simp only
  rw [List.getElem?_set_self hlt]

theorem pres_put {k : Nat} {s s' : St} {i : Nat} {l : Option Loc} (h : s'.envs = putEnv s.envs s.env i l) (hk : k ≤ i) : Pres k s s' := by
  refine ⟨Nat.le_of_eq (by rw [h, putEnv_length]), fun j _ hn => by rw [h, putEnv_ne hn], fun f hf => ⟨f.set i l, by rw [h, putEnv_own hf], by simp, ?_⟩⟩
  intro j hj
  rw [List.getElem?_set_ne (by omega)]

theorem slots_put {s s' : St} {i : Nat} {l : Option Loc} (h : s'.envs = putEnv s.envs s.env i l) (he : s'.env = s.env) : s'.slots = s.slots := by
  rw [St.slots, St.slots, h, he]
  cases hf : s.envs[s.env]? with
  | none => rw [putEnv, hf]; simp only [hf]
  | some f => rw [putEnv_own hf]; simp

theorem slot_put_self {s s' : St} {i : Nat} {l : Option Loc} (h : s'.envs = putEnv s.envs s.env i l) (he : s'.env = s.env) (hi : i < s.slots) :
    s'.slot i = l := by
  rw [St.slot, h, he]
  rw [St.slots] at hi
  cases hf : s.envs[s.env]? with
  | none => rw [hf] at hi; exact absurd hi (by simp)
  | some f =>
    rw [hf] at hi
    rw [putEnv_own hf]
    simp only at hi ⊢
    rw [List.getElem?_set_self hi]; rfl

theorem locOf_set_self (e0 : Nat) (ρ : REnv) (x : Sym) (c : Nat) : locOf e0 (ρ.set x c) x = .cell c := by simp [locOf, REnv.set]

theorem locOf_set_ne (e0 : Nat) (ρ : REnv) {x y : Sym} (c : Nat) (h : y ≠ x) : locOf e0 (ρ.set x c) y = locOf e0 ρ y := by simp [locOf, REnv.set, h]

/-- Binding one variable in the next free slot. -/
theorem bindSlot_sim {e0 : Nat} {ρ : REnv} {sc : Scope} {σ : RS} {s : St} {x : Sym} {v : RV} {w : MV} (hf : FrRel e0 ρ sc s) (hs : SRel e0 σ s)
    (hlt : sc.length < s.slots) (hv : VR e0 v w) :
    FrRel e0 (ρ.set x σ.cells.length) (x :: sc) (s.bindSlot sc.length w) ∧
      SRel e0 { σ with cells := σ.cells ++ [v] } (s.bindSlot sc.length w) ∧ Pres sc.length s (s.bindSlot sc.length w) ∧
      (s.bindSlot sc.length w).slots = s.slots := by
  have hlen : σ.cells.length = s.cells.length := List.Forall₂.length_eq hs.cells
  rw [bindSlot_eq]
  refine ⟨?_, ?_, pres_put rfl (Nat.le_refl _), slots_put rfl rfl⟩
  · intro y i hy
    rw [scopeRef] at hy
    split at hy
    next he =>
      cases hy
      subst he
      rw [locOf_set_self, hlen]
      exact slot_put_self rfl rfl hlt
    next hne =>
      rw [locOf_set_ne _ _ _ (fun e => hne e.symm)]
      have hp : Pres sc.length s { s with envs := putEnv s.envs s.env sc.length (some (.cell s.cells.length)), cells := s.cells ++ [w] } :=
        pres_put rfl (Nat.le_refl _)
      exact hp.slot rfl (scopeRef_lt hy) (hf y i hy)
  · exact ⟨hs.tenv, Forall₂.append hs.cells (.cons hv .nil), hs.globs⟩

/-- Binding several variables. -/
theorem bindAll_sim {e0 : Nat} : ∀ (xs : List Sym) {ρ : REnv} {sc : Scope} {σ : RS} {s : St} {vs : List RV} {ws : List MV},
    FrRel e0 ρ sc s → SRel e0 σ s → sc.length + xs.length ≤ s.slots → List.Forall₂ (VR e0) vs ws → vs.length = xs.length →
    ∃ E, s.bindAll sc.length ws = { s with envs := E, cells := s.cells ++ ws } ∧
      FrRel e0 (bindVals ρ σ xs vs).1 (scopeBind sc xs) (s.bindAll sc.length ws) ∧ SRel e0 (bindVals ρ σ xs vs).2 (s.bindAll sc.length ws) ∧
      Pres sc.length s (s.bindAll sc.length ws) ∧ (s.bindAll sc.length ws).slots = s.slots
  | [], ρ, sc, σ, s, _, _, hf, hs, _, .nil, _ => by
    refine ⟨s.envs, by simp [St.bindAll], hf, hs, Pres.refl _ _, rfl⟩
  | [], _, _, _, _, _, _, _, _, _, .cons _ _, h => by simp at h
  | x :: xs, _, _, _, _, _, _, _, _, _, .nil, h => by simp at h
  | x :: xs, ρ, sc, σ, s, _, _, hf, hs, hlt, .cons (l₁ := vs) (l₂ := ws) (b := w) hv hr, h => by
    simp only [List.length_cons] at hlt h
    obtain ⟨h1, h2, h3, h4⟩ := bindSlot_sim (x := x) hf hs (by omega) hv
    obtain ⟨E, g1, g2, g3, g4, g5⟩ := bindAll_sim xs (sc := x :: sc) h1 h2 (by rw [h4]; simp only [List.length_cons]; omega) hr (by omega)
    simp only [List.length_cons] at g1 g2 g3 g4 g5
    simp only [St.bindAll, bindVals, scopeBind, List.foldl_cons]
    refine ⟨E, ?_, g2, g3, ?_, by rw [g5, h4]⟩
    · rw [g1, bindSlot_eq]; simp
    · exact h3.trans (g4.mono (by omega)) (by rw [bindSlot_eq])

theorem bindVals_none {xs : List Sym} : ∀ {ρ : REnv} {σ : RS} {vs : List RV} {x : Sym}, x ∉ xs → (bindVals ρ σ xs vs).1 x = ρ x := by
  induction xs with
  | nil => intros; simp [bindVals]
  | cons y ys ih =>
    intro ρ σ vs x hx
    simp only [List.mem_cons, not_or] at hx
    cases vs with
    | nil => rfl
    | cons v vs => rw [bindVals, ih hx.2, REnv.set, if_neg hx.1]

/-! ## Closures -/

/-- What stays the same while a closure is made. -/
structure Same (s s' : St) : Prop where
  code : s'.code = s.code
  env : s'.env = s.env
  envs : s'.envs = s.envs
  cont : s'.cont = s.cont
  args : s'.args = s.args
  cp : s'.cp = s.cp

theorem Same.refl (s : St) : Same s s := ⟨rfl, rfl, rfl, rfl, rfl, rfl⟩

theorem Same.trans {a b c : St} (h1 : Same a b) (h2 : Same b c) : Same a c :=
  ⟨h2.code.trans h1.code, h2.env.trans h1.env, h2.envs.trans h1.envs, h2.cont.trans h1.cont, h2.args.trans h1.args, h2.cp.trans h1.cp⟩

theorem lookupCell_sim {host : Host} {e0 : Nat} {ρ : REnv} {sc : Scope} {σ : RS} {s : St} {items : List Item} {tm : List Code} {x : Sym} {r : List Item}
    (hf : FrRel e0 ρ sc s) (hs : SRel e0 σ s) (hx : x ∈ sc ∨ ρ x = none) (hh : Here items tm s.code s.pc (.ins (lookupCellIns sc x) :: r)) :
    ∃ s', Steps host s s' ∧ s'.pc = s.pc + 1 ∧ s'.res = .cell (locOf e0 ρ x) ∧ s'.t0 = s.t0 ∧ SRel e0 σ s' ∧ Same s s' := by
  have hst := hh.step host
  rw [lookupCellIns] at hst
  cases hr : scopeRef sc x with
  | some i =>
    rw [hr] at hst
    simp only [mapI, St.exec, hf x i hr] at hst
    exact ⟨_, .one hst, rfl, rfl, rfl, hs.congr rfl rfl rfl, ⟨rfl, rfl, rfl, rfl, rfl, rfl⟩⟩
  | none =>
    rw [hr] at hst
    have hn : ρ x = none := hx.resolve_left (scopeRef_none.1 hr)
    have hl : locOf e0 ρ x = .glob e0 x := by rw [locOf, hn]
    rw [hl]
    cases hg : s.globs e0 x with
    | none =>
      simp only [mapI, St.exec, hs.tenv, hg] at hst
      exact ⟨_, .one hst, rfl, rfl, rfl, (setGlob_unbound hs hg).congr hs.tenv.symm rfl rfl, ⟨rfl, rfl, rfl, rfl, rfl, rfl⟩⟩
    | some w =>
      simp only [mapI, St.exec, hs.tenv, hg] at hst
      exact ⟨_, .one hst, rfl, rfl, rfl, hs.congr hs.tenv.symm rfl rfl, ⟨rfl, rfl, rfl, rfl, rfl, rfl⟩⟩

theorem fill_sim {host : Host} {e0 : Nat} {ρ : REnv} {sc : Scope} {σ : RS} {items : List Item} {tm : List Code} : ∀ (xs : List Sym) (i : Nat) {s : St}
    {r : List Item} {c : MC} {done : List (Option Loc)}, FrRel e0 ρ sc s → SRel e0 σ s → (∀ x ∈ xs, x ∈ sc ∨ ρ x = none) →
    Here items tm s.code s.pc (fillClosure sc xs i ++ r) → s.t0 = .clo c → c.cells = done ++ List.replicate xs.length none → done.length = i →
    ∃ s', Steps host s s' ∧ s'.pc = s.pc + (instrs (fillClosure sc xs i)).length ∧
      s'.t0 = .clo { c with cells := done ++ xs.map (fun x => some (locOf e0 ρ x)) } ∧ SRel e0 σ s' ∧ Same s s'
  | [], i, s, r, c, done, _, hs, _, _, ht, hc, _ => by
    refine ⟨s, .refl _, rfl, ?_, hs, Same.refl _⟩
    rw [ht]
    simp only [List.length_nil, List.replicate_zero] at hc
    rw [List.map_nil, ← hc]
  | x :: xs, i, s, r, c, done, hf, hs, hx, hh, ht, hc, hi => by
    simp only [fillClosure, List.cons_append] at hh
    obtain ⟨s1, a1, a2, a3, a4, a5, a6⟩ := lookupCell_sim (host := host) hf hs (hx x (by simp)) hh
    have hh1 : Here items tm s1.code s1.pc (.ins (.closureSet .t0 i .res) :: (fillClosure sc xs (i + 1) ++ r)) := by rw [a6.code, a2]; exact hh.next
    have hst := hh1.step host
    have hlen : i < c.cells.length := by rw [hc]; simp only [List.length_append, List.length_replicate, List.length_cons]; omega
    simp only [mapI, St.exec, St.load, a3, a4, ht, hlen, if_true, St.store] at hst
    have hset : c.cells.set i (some (locOf e0 ρ x)) = (done ++ [some (locOf e0 ρ x)]) ++ List.replicate xs.length none := by
      rw [hc, ← hi, List.set_append_right _ _ (Nat.le_refl _), Nat.sub_self]
      simp [List.replicate_succ]
    obtain ⟨s2, b1, b2, b3, b4, b5⟩ := fill_sim xs (i + 1) (s := St.adv { s1 with res := .cell (locOf e0 ρ x), t0 := .clo { c with cells := c.cells.set i (some (locOf e0 ρ x)) } })
      (c := { c with cells := c.cells.set i (some (locOf e0 ρ x)) }) (done := done ++ [some (locOf e0 ρ x)]) (r := r)
      (hf.congr a6.envs a6.env) (a5.congr rfl rfl rfl) (fun y hy => hx y (List.mem_cons_of_mem _ hy)) hh1.next rfl hset (by simp [hi])
    refine ⟨s2, a1.trans (.step hst b1), ?_, ?_, b4, a6.trans ?_⟩
    · rw [b2]; simp only [St.adv, a2, fillClosure, instrs, List.length_cons]; omega
    · rw [b3]; simp
    · exact ⟨b5.code, b5.env, b5.envs, b5.cont, b5.args, b5.cp⟩

/-- The instructions that make a closure make one whose cells are those of the free variables. -/
theorem closure_sim {host : Host} {e0 : Nat} {ρ : REnv} {sc : Scope} {σ : RS} {items : List Item} {tm : List Code} (idx : Nat) (fvs : List Sym) {s : St}
    {r : List Item} (hf : FrRel e0 ρ sc s) (hs : SRel e0 σ s) (hx : ∀ x ∈ fvs, x ∈ sc ∨ ρ x = none)
    (hh : Here items tm s.code s.pc (closureIns sc idx fvs ++ r)) :
    ∃ s' n, Steps host s s' ∧ s'.pc = s.pc + (instrs (closureIns sc idx fvs)).length ∧
      s'.res = .clo ⟨tref tm idx, fvs.map (fun x => some (locOf e0 ρ x)), n⟩ ∧ SRel e0 σ s' ∧ Same s s' := by
  have hst := hh.step host
  simp only [mapI, St.exec] at hst
  cases fvs with
  | nil =>
    exact ⟨_, _, .one hst, rfl, rfl, hs.congr rfl rfl rfl, ⟨rfl, rfl, rfl, rfl, rfl, rfl⟩⟩
  | cons x xs =>
    have h1 : Here items tm s.code (s.pc + 1) (.ins (.mov .t0 .res) :: (fillClosure sc (x :: xs) 0 ++ ([.ins (.mov .res .t0)] ++ r))) := by
      have := hh.next
      simpa using this
    have hst1 := Here.step (s := St.adv { s with res := .clo ⟨tref tm idx, List.replicate (x :: xs).length none, s.env⟩ }) h1 host
    simp only [mapI, St.exec, St.load, St.store] at hst1
    obtain ⟨s2, b1, b2, b3, b4, b5⟩ := fill_sim (host := host) (x :: xs) 0
      (s := St.adv { St.adv { s with res := .clo ⟨tref tm idx, List.replicate (x :: xs).length none, s.env⟩ } with
        t0 := .clo ⟨tref tm idx, List.replicate (x :: xs).length none, s.env⟩ })
      (done := []) (r := [.ins (.mov .res .t0)] ++ r) (hf.congr rfl rfl) (hs.congr rfl rfl rfl) hx
      h1.next rfl rfl rfl
    have h2 : Here items tm s2.code s2.pc (.ins (.mov .res .t0) :: r) := by
      rw [b5.code, b2]
      exact h1.next.right
    have hst2 := h2.step host
    simp only [mapI, St.exec, St.load, St.store, b3] at hst2
    refine ⟨_, s.env, .step hst (.step hst1 (b1.trans (.one hst2))), ?_, by simp [St.adv], b4.congr rfl rfl rfl, ?_⟩
    · simp only [St.adv, b2, closureIns, instrs, instrs_append, List.length_cons, List.length_append, List.length_nil]; omega
    · exact ⟨b5.code, b5.env, b5.envs, b5.cont, b5.args, b5.cp⟩

end Minim.Jit

import Verif.ExpMod

set_option autoImplicit false

/-!
# Expansion of modules: the expansion does what the module should do
-/

namespace Minim.Exp

open Minim.Sx Minim.Core Minim.Jit

variable {P : Prims} {N : Sym → Prop}

theorem EvM.append {es fs : List E} {σ σ1 σ2 : RS} (h1 : EvM P es σ σ1) (h2 : EvM P fs σ1 σ2) : EvM P (es ++ fs) σ σ2 := by
  induction h1 with
  | nil => exact h2
  | cons h _ ih => exact .cons h (ih h2)

theorem EvM.one {e : E} {σ σ1 : RS} {vs : List RV} (h : Evs P (fun _ => none) e σ vs σ1) : EvM P [e] σ σ1 := .cons h .nil

theorem agree0 : Agree N (fun _ => none) (fun _ => none) := ⟨fun _ _ => rfl, rfl, rfl⟩

theorem setGlob_rel {σ : SS} {σ' : RS} (hs : SR P σ σ') {x : Sym} (hx : Bindable N x) {v : SV} {w : RV} (hv : VX v w) : SR P (σ.setGlob x v) (σ'.setGlob x w) := by
  refine ⟨hs.cells, fun y => ?_, ?_, ?_⟩
  · simp only [SS.setGlob, RS.setGlob]
    split
    · exact hv
    · exact hs.globs y
  · obtain ⟨v, h1, h2⟩ := hs.void
    exact ⟨v, by simp only [RS.setGlob]; rw [if_neg (Ne.symm hx.2.1)]; exact h1, h2⟩
  · simp only [RS.setGlob]; rw [if_neg (Ne.symm hx.2.2)]; exact hs.values

theorem setGlobs_rel : ∀ {xs : List Sym} {vs : List SV} {ws : List RV} {σ : SS} {σ' : RS}, SR P σ σ' → (∀ x ∈ xs, Bindable N x) → List.Forall₂ VX vs ws → SR P (σ.setGlobs xs vs) (σ'.setGlobs xs ws)
  | [], _, _, _, _, hs, _, _ => by simp only [SS.setGlobs, RS.setGlobs]; exact hs
  | _ :: _, [], [], _, _, hs, _, _ => by simp only [SS.setGlobs, RS.setGlobs]; exact hs
  | _ :: _, _ :: _, _ :: _, _, _, hs, hx, .cons hv hvs => by
    rw [SS.setGlobs, RS.setGlobs]
    exact setGlobs_rel (setGlob_rel hs (hx _ (List.mem_cons_self ..)) hv) (fun x h => hx x (List.mem_cons_of_mem _ h)) hvs

/-- expressions that are one form after expansion -/
theorem plain_sim (hN : Names N) {n : Nat} {s : S} {σ σ1 : SS} {σ' : RS} {vs : List SV} (h : sev P n (fun _ => none) s σ = .ok (vs, σ1)) (ho : Ok N s) (hs : SR P σ σ') (ht : xtop s = [xp true s]) :
    ∃ σ1', EvM P (xtop s) σ' σ1' ∧ SR P σ1 σ1' := by
  obtain ⟨vs', σ1', h1, _, h3⟩ := (sim_all P n).e h hN ho agree0 hs true
  rw [ht]
  exact ⟨σ1', .one h1.1, h3⟩

theorem expr_sim (hN : Names N) : ∀ (n : Nat),
    (∀ {s : S} {σ σ1 : SS} {σ' : RS} {vs : List SV}, sev P n (fun _ => none) s σ = .ok (vs, σ1) → Ok N s → defn s = none → SR P σ σ' → ∃ σ1', EvM P (xtop s) σ' σ1' ∧ SR P σ1 σ1') ∧
    (∀ {es : List S} {σ σ1 : SS} {σ' : RS} {vs : List SV}, sSeq P n (fun _ => none) es σ = .ok (vs, σ1) → OkL N es → SR P σ σ' → ∃ σ1', EvM P (xtops es) σ' σ1' ∧ SR P σ1 σ1') := by
  intro n
  induction n using Nat.strongRecOn with
  | _ n ih =>
    constructor
    · intro s σ σ1 σ' vs h ho hd hs
      cases n with
      | zero => rw [sev] at h; cases h
      | succ n =>
        cases s with
        | begin es =>
          rw [sev] at h; rw [Ok] at ho; rw [xtop]
          exact (ih n (by omega)).2 h ho hs
        | and es =>
          match es, h, ho with
          | [e], h, ho =>
            rw [sev] at h
            rw [Ok, OkL] at ho
            cases n with
            | zero => rw [sAnds] at h; cases h
            | succ n =>
              rw [sAnds] at h
              rw [xtop]
              exact (ih n (by omega)).1 h ho.1.2 ho.1.1 hs
          | [], h, ho => exact plain_sim hN h ho hs (by rw [xtop] <;> simp)
          | _ :: _ :: _, h, ho => exact plain_sim hN h ho hs (by rw [xtop] <;> simp)
        | or es =>
          match es, h, ho with
          | [e], h, ho =>
            rw [sev] at h
            rw [Ok, OkL] at ho
            cases n with
            | zero => rw [sOrs] at h; cases h
            | succ n =>
              rw [sOrs] at h
              rw [xtop]
              exact (ih n (by omega)).1 h ho.1.2 ho.1.1 hs
          | [], h, ho => exact plain_sim hN h ho hs (by rw [xtop] <;> simp)
          | _ :: _ :: _, h, ho => exact plain_sim hN h ho hs (by rw [xtop] <;> simp)
        | cond ts bs els =>
          match ts, bs, els, h, ho with
          | [], [], [e], h, ho =>
            rw [sev] at h
            rw [Ok] at ho
            obtain ⟨-, -, -, h1, -, h2⟩ := ho
            have h1 : defn e = none := by simpa [endsExpr] using h1
            rw [OkI] at h2
            cases n with
            | zero => rw [sConds] at h; cases h
            | succ n =>
              rw [sConds] at h
              · cases n with
                | zero => rw [sBody] at h; cases h
                | succ n =>
                  unfold sBody at h
                  simp only [h1, Option.isSome_none, Bool.false_eq_true, if_false] at h
                  rw [xtop]
                  exact (ih n (by omega)).1 h h2.1 h1 hs
              · simp
          | [], [], [], h, ho => exact plain_sim hN h ho hs (by rw [xtop] <;> simp)
          | [], [], _ :: _ :: _, h, ho => exact plain_sim hN h ho hs (by rw [xtop] <;> simp)
          | _ :: _, _, _, h, ho => exact plain_sim hN h ho hs (by rw [xtop] <;> simp)
          | [], _ :: _, _, h, ho => exact plain_sim hN h ho hs (by rw [xtop] <;> simp)
        | _ => exact plain_sim hN h ho hs (by rw [xtop] <;> simp)
    · intro es σ σ1 σ' vs h ho hs
      cases n with
      | zero => rw [sSeq] at h; cases h
      | succ n =>
        match es, h, ho with
        | [], h, _ =>
          rw [sSeq] at h; cases h
          exact ⟨σ', by rw [xtops]; exact .nil, hs⟩
        | [e], h, ho =>
          rw [sSeq] at h; rw [OkL] at ho
          rw [xtops, xtops, List.append_nil]
          exact (ih n (by omega)).1 h ho.1.2 ho.1.1 hs
        | e :: e' :: es, h, ho =>
          rw [sSeq] at h; rw [OkL] at ho
          obtain ⟨⟨_, σ2⟩, h1, h2⟩ := Res.bind_eq_ok.1 h
          obtain ⟨σ2', k1, k2⟩ := (ih n (by omega)).1 h1 ho.1.2 ho.1.1 hs
          obtain ⟨σ3', k3, k4⟩ := (ih n (by omega)).2 h2 ho.2 k2
          exact ⟨σ3', by rw [xtops]; exact k1.append k3, k4⟩

theorem defn_ok {s r : S} {is : List Sym} (h : defn s = some (is, r)) (ho : Ok N s) : Ok N r ∧ (∀ x ∈ is, Bindable N x) ∧ xtop s = [.define is (xp true r)] := by
  cases s with
  | define xs e =>
    cases h; rw [Ok] at ho
    exact ⟨ho.2.2, ho.1, by rw [xtop, xp] <;> simp⟩
  | def1 x e =>
    cases h; rw [Ok] at ho
    exact ⟨ho.2.2, by simpa using ho.1, by rw [xtop, xp] <;> simp⟩
  | fn f fs body =>
    cases h; rw [Ok] at ho
    refine ⟨by rw [Ok]; exact ho.2, by simpa using ho.1, ?_⟩
    rw [xtop, xp, xp] <;> simp
  | _ => cases h

theorem mod_sim (hN : Names N) : ∀ (n : Nat) {ss : List S} {σ σ1 : SS} {σ' : RS}, sTop P n ss σ = .ok σ1 → OkTops N ss → SR P σ σ' → ∃ σ1', EvM P (xtops ss) σ' σ1' ∧ SR P σ1 σ1'
  | 0, _, _, _, _, h, _, _ => by rw [sTop] at h; cases h
  | n + 1, [], σ, _, σ', h, _, hs => by
    rw [sTop] at h; cases h
    exact ⟨σ', by rw [xtops]; exact .nil, hs⟩
  | n + 1, s :: ss, σ, σ1, σ', h, ho, hs => by
    rw [OkTops] at ho
    rw [xtops]
    by_cases hb : ∃ es, s = .begin es
    · obtain ⟨es, rfl⟩ := hb
      rw [sTop] at h
      obtain ⟨σ2, h1, h2⟩ := Res.bind_eq_ok.1 h
      rw [OkTop] at ho
      obtain ⟨σ2', k1, k2⟩ := mod_sim hN n h1 ho.1 hs
      obtain ⟨σ3', k3, k4⟩ := mod_sim hN n h2 ho.2 k2
      rw [xtop]
      exact ⟨σ3', k1.append k3, k4⟩
    · have hok : Ok N s := by
        have := ho.1
        rw [OkTop] at this
        · exact this
        · exact fun es he => hb ⟨es, he⟩
      rw [sTop] at h
      · cases hd : defn s with
        | none =>
          rw [hd] at h
          obtain ⟨⟨_, σ2⟩, h1, h2⟩ := Res.bind_eq_ok.1 h
          obtain ⟨σ2', k1, k2⟩ := (expr_sim hN n).1 h1 hok hd hs
          obtain ⟨σ3', k3, k4⟩ := mod_sim hN n h2 ho.2 k2
          exact ⟨σ3', k1.append k3, k4⟩
        | some p =>
          obtain ⟨is, r⟩ := p
          rw [hd] at h
          obtain ⟨⟨vs, σ2⟩, h1, h2⟩ := Res.bind_eq_ok.1 h
          simp only at h2
          split at h2
          next hl =>
            obtain ⟨g1, g2, g3⟩ := defn_ok hd hok
            obtain ⟨vs', σ2', k1, k2, k3⟩ := (sim_all P n).e h1 hN g1 agree0 hs true
            obtain ⟨σ3', k4, k5⟩ := mod_sim hN n h2 ho.2 (setGlobs_rel k3 g2 k2)
            rw [g3]
            exact ⟨σ3', (EvM.one (Evs.define k1.1 (by rw [← k2.length_eq, hl]))).append k4, k5⟩
          · cases h2
      · exact fun es he => hb ⟨es, he⟩

end Minim.Exp

import Verif.SxTmplSpec
import Verif.SxMatch

set_option autoImplicit false

/-!
# Templates: the names in the generated text do not matter

Evaluation of instructions with an environment for the pattern variables themselves, and that evaluation of the generated text agrees with it.
-/

namespace Minim.Sc

mutual

/-- Evaluation of instructions: `ρ` gives the current values of the pattern variables. -/
def evalI : Instr → Env → Res V
  | .subst form ops is, ρ => do
    let vs ← evalIL is ρ
    let g ← runOps form ops vs
    .ok (toSyntax g)
  | .append mapped _ i, ρ => do
    let vs ← lookups ρ (mapped.map VD.name)
    mapCall (fun row => evalI i (bindRow ρ (mapped.map VD.name) row)) vs
  | .vector i, ρ => do
    let v ← evalI i ρ
    templateVector v
  | .const v, _ => .ok (toSyntax v)
  | .var vd, ρ => match ρ vd.name with
    | some v => .ok v
    | none => .err

/-- the inputs from left to right -/
def evalIL : List Instr → Env → Res (List V)
  | [], _ => .ok []
  | i :: is, ρ => do
    let v ← evalI i ρ
    let vs ← evalIL is ρ
    .ok (v :: vs)

end

mutual

/-- The variables in an instruction. -/
def Instr.vds : Instr → List VD
  | .subst _ _ is => vdsL is
  | .append m _ i => m ++ i.vds
  | .vector i => i.vds
  | .const _ => []
  | .var vd => [vd]

/-- the same for lists -/
def vdsL : List Instr → List VD
  | [] => []
  | i :: is => i.vds ++ vdsL is

end

/-- The text refers to the right values and to no temporary that is still to be made. -/
def Agree (vds : List VD) (vm : List (Nm × Nm)) (c : Nat) (env ρ : Env) : Prop :=
  ∀ vd ∈ vds, env (refOf vm vd) = ρ vd.name ∧ ∀ m, refOf vm vd = .pv m → m ≤ c

theorem Agree.mono {vds vds' : List VD} {vm : List (Nm × Nm)} {c c' : Nat} {env ρ : Env} (h : Agree vds vm c env ρ) (hs : ∀ v ∈ vds', v ∈ vds) (hc : c ≤ c') : Agree vds' vm c' env ρ :=
  fun vd hv => ⟨(h vd (hs vd hv)).1, fun m hm => le_trans ((h vd (hs vd hv)).2 m hm) hc⟩

theorem lookups_agree {m : List VD} {vm : List (Nm × Nm)} {c : Nat} {env ρ : Env} (h : Agree m vm c env ρ) :
    lookups env (m.map (refOf vm)) = lookups ρ (m.map VD.name) := by
  induction m with
  | nil => rfl
  | cons vd m ih =>
    simp only [List.map_cons, lookups, (h vd (by simp)).1]
    rw [ih (h.mono (fun v hv => List.mem_cons_of_mem _ hv) le_rfl)]

theorem lookups_length {ρ : Env} {xs : List Nm} {vs : List V} (h : lookups ρ xs = .ok vs) : vs.length = xs.length := by
  induction xs generalizing vs with
  | nil => cases h; rfl
  | cons x xs ih =>
    simp only [lookups] at h
    cases hx : ρ x with
    | none => simp [hx] at h
    | some v =>
      cases hr : lookups ρ xs with
      | ok ws =>
        simp only [hx, hr, ok_bind, Res.ok.injEq] at h
        subst h; simp [ih hr]
      | _ => simp [hx, hr] at h <;> exact absurd h (by simp [Bind.bind, Res.bind])

theorem headsTails_length {ls : List (List V)} {hs : List V} {ts : List (List V)} (h : headsTails ls = some (hs, ts)) : hs.length = ls.length ∧ ts.length = ls.length := by
  induction ls generalizing hs ts with
  | nil => simp [headsTails] at h; simp [h.1, h.2]
  | cons l ls ih =>
    cases l with
    | nil => simp [headsTails] at h
    | cons a l =>
      simp only [headsTails, Option.map_eq_some_iff, Prod.mk.injEq, Prod.exists] at h
      obtain ⟨a', b', h1, rfl, rfl⟩ := h
      simp [ih h1]

theorem mapRows_congr {f g : List V → Res V} {n : Nat} {ls : List (List V)} (h : ∀ row, row.length = ls.length → f row = g row) : mapRows f n ls = mapRows g n ls := by
  induction n generalizing ls with
  | zero => rfl
  | succ n ih =>
    simp only [mapRows]
    cases hh : headsTails ls with
    | none => rfl
    | some p =>
      obtain ⟨hs, ts⟩ := p
      obtain ⟨h1, h2⟩ := headsTails_length hh
      simp only
      rw [h hs h1, ih fun row hr => h row (by rw [hr, h2])]

theorem mapM_length {α β : Type} {f : α → Option β} {xs : List α} {ys : List β} (h : xs.mapM f = some ys) : ys.length = xs.length := by
  induction xs generalizing ys with
  | nil => simp at h; simp [h]
  | cons x xs ih =>
    simp only [List.mapM_cons, Option.bind_eq_bind, Option.bind_eq_some_iff, Option.pure_def, Option.some.injEq] at h
    obtain ⟨y, _, ys', h1, rfl⟩ := h
    simp [ih h1]

theorem mapCall_congr {f g : List V → Res V} {vs : List V} (h : ∀ row, row.length = vs.length → f row = g row) : mapCall f vs = mapCall g vs := by
  unfold mapCall
  cases hm : vs.mapM rawList with
  | none => rfl
  | some ls =>
    have hl := mapM_length hm
    cases ls with
    | nil => rfl
    | cons l ls =>
      simp only
      rw [mapRows_congr fun row hr => h row (by rw [hr, hl])]

theorem bindRow_not_mem {env : Env} {xs : List Nm} {vs : List V} {y : Nm} (h : y ∉ xs) : bindRow env xs vs y = env y := by
  induction xs generalizing env vs with
  | nil => rfl
  | cons x xs ih =>
    cases vs with
    | nil => rfl
    | cons v vs =>
      simp only [List.mem_cons, not_or] at h
      rw [bindRow, ih h.2, upd_other _ _ h.1]

theorem lookup_append (l1 l2 : List (Nm × Nm)) (x : Nm) : (l1 ++ l2).lookup x = match l1.lookup x with | some v => some v | none => l2.lookup x := by
  induction l1 with
  | nil => rfl
  | cons p l1 ih =>
    obtain ⟨a, b⟩ := p
    simp only [List.cons_append, List.lookup_cons]
    cases x == a <;> simp [ih]

/-- After the parameters of the `lambda` are bound, the text refers to the values that the variables themselves get. -/
theorem agree_bind (m vds : List VD) (ts : List Nm) (row : List V) (hl : ts.length = m.length) (hr : row.length = m.length) (hn : ts.Nodup) (vm : List (Nm × Nm)) (env ρ : Env)
    (h : ∀ vd ∈ vds, env (refOf vm vd) = ρ vd.name) (hfr : ∀ vd ∈ vds, refOf vm vd ∉ ts) (vd : VD) (hvd : vd ∈ vds) :
    bindRow env ts row (refOf (((m.map VD.name).zip ts).reverse ++ vm) vd) = bindRow ρ (m.map VD.name) row vd.name ∧
      (refOf (((m.map VD.name).zip ts).reverse ++ vm) vd ∈ ts ∨ refOf (((m.map VD.name).zip ts).reverse ++ vm) vd = refOf vm vd) := by
  induction m generalizing ts row vm env ρ vds with
  | nil =>
    cases ts with
    | nil => exact ⟨h vd hvd, .inr rfl⟩
    | cons _ _ => simp at hl
  | cons v0 m ih =>
    cases ts with
    | nil => simp at hl
    | cons t ts =>
      cases row with
      | nil => simp at hr
      | cons w row =>
        simp only [List.nodup_cons] at hn
        have hvm : ((List.map VD.name (v0 :: m)).zip (t :: ts)).reverse ++ vm = ((m.map VD.name).zip ts).reverse ++ ((v0.name, t) :: vm) := by simp
        rw [hvm]
        have key : ∀ v, refOf ((v0.name, t) :: vm) v = if v.name = v0.name then t else refOf vm v := by
          intro v
          simp only [refOf, List.lookup_cons]
          by_cases he : v.name = v0.name
          · simp [he]
          · have hb : (v.name == v0.name) = false := by simpa using he
            simp only [hb, he, if_false]
        obtain ⟨h1, h2⟩ := ih vds ts row (by simpa using hl) (by simpa using hr) hn.2 ((v0.name, t) :: vm) (upd env t w) (upd ρ v0.name w) (by
          intro v hv
          rw [key]
          split_ifs with he
          · rw [upd_same, he, upd_same]
          · rw [upd_other _ _ (fun e => hfr v hv (by rw [e]; simp)), upd_other _ _ he, h v hv]) (by
          intro v hv
          rw [key]
          split_ifs with he
          · exact hn.1
          · exact fun hm => hfr v hv (List.mem_cons_of_mem _ hm)) hvd
        refine ⟨h1, ?_⟩
        rcases h2 with h2 | h2
        · exact .inl (List.mem_cons_of_mem _ h2)
        · rw [h2, key]
          split_ifs
          · exact .inl (by simp)
          · exact .inr rfl

theorem tempIds_nodup (c n : Nat) : (tempIds c n).Nodup := List.pairwise_map.2 (List.nodup_range.imp fun h h' => h (by simpa using h'))

theorem tempIds_mem {c n : Nat} {t : Nm} (h : t ∈ tempIds c n) : ∃ k, t = .pv k ∧ c < k ∧ k ≤ c + n := by
  simp only [tempIds, List.mem_map, List.mem_range] at h
  obtain ⟨k, hk, rfl⟩ := h
  exact ⟨_, rfl, by omega, by omega⟩

mutual

theorem build_ok : ∀ (i : Instr) (vm : List (Nm × Nm)) (c : Nat), c ≤ (build i vm c).2 ∧
    ∀ env ρ, Agree i.vds vm c env ρ → runT (build i vm c).1 env = evalI i ρ
  | .subst form ops is, vm, c => by
    obtain ⟨h1, h2⟩ := buildL_ok is vm c
    refine ⟨h1, fun env ρ h => ?_⟩
    simp only [build, runT, evalI, h2 env ρ h]
  | .append m k i, vm, c => by
    obtain ⟨h1, h2⟩ := build_ok i (((m.map VD.name).zip (tempIds c m.length)).reverse ++ vm) (c + m.length)
    refine ⟨by simp only [build]; omega, fun env ρ h => ?_⟩
    simp only [build, runT, evalI]
    rw [lookups_agree (h.mono (fun v hv => by simp [Instr.vds, hv]) le_rfl)]
    cases hl : lookups ρ (m.map VD.name) with
    | ok vs =>
      simp only [ok_bind]
      refine mapCall_congr fun row hrow => h2 _ _ fun vd hvd => ?_
      have hlen := lookups_length hl
      rw [List.length_map] at hlen
      have hvd' : vd ∈ i.vds := hvd
      obtain ⟨a, b⟩ := agree_bind m i.vds (tempIds c m.length) row (by simp [tempIds]) (by rw [hrow, hlen]) (tempIds_nodup _ _) vm env ρ
        (fun v hv => (h v (by simp [Instr.vds, hv])).1)
        (fun v hv hm => by
          obtain ⟨k, hk1, hk2, _⟩ := tempIds_mem hm
          exact absurd ((h v (by simp [Instr.vds, hv])).2 k hk1) (by omega)) vd hvd'
      refine ⟨a, fun n hn => ?_⟩
      rcases b with b | b
      · obtain ⟨k, hk1, _, hk3⟩ := tempIds_mem b
        rw [hk1] at hn; cases hn; exact hk3
      · have := (h vd (by simp [Instr.vds, hvd'])).2 n (by rw [← b, hn])
        omega
    | _ => rfl
  | .vector i, vm, c => by
    obtain ⟨h1, h2⟩ := build_ok i vm c
    refine ⟨h1, fun env ρ h => ?_⟩
    simp only [build, runT, evalI, h2 env ρ h]
  | .const v, vm, c => ⟨le_rfl, fun env ρ h => rfl⟩
  | .var vd, vm, c => by
    refine ⟨le_rfl, fun env ρ h => ?_⟩
    simp only [build, runT, evalI, (h vd (by simp [Instr.vds])).1]
    cases ρ vd.name <;> rfl

theorem buildL_ok : ∀ (is : List Instr) (vm : List (Nm × Nm)) (c : Nat), c ≤ (buildL is vm c).2 ∧
    ∀ env ρ, Agree (vdsL is) vm c env ρ → runTL (buildL is vm c).1 env = evalIL is ρ
  | [], vm, c => ⟨le_rfl, fun env ρ h => rfl⟩
  | i :: is, vm, c => by
    obtain ⟨h1, h2⟩ := build_ok i vm c
    obtain ⟨h3, h4⟩ := buildL_ok is vm (build i vm c).2
    refine ⟨by simp only [buildL]; omega, fun env ρ h => ?_⟩
    simp only [buildL, runTL, evalIL]
    rw [h2 env ρ (h.mono (fun v hv => by simp [vdsL, hv]) le_rfl), h4 env ρ (h.mono (fun v hv => by simp [vdsL, hv]) h1)]

end

end Minim.Sc

import Verif.SimStep

set_option autoImplicit false

/-!
# Entering a procedure
-/

namespace Minim.Jit

open Minim.Sx Minim.Core

/-- The environments after binding `k` new cells, numbered from `c`, in slots from `i` on. -/
def bindEnvs (env : Nat) : List (List (Option Loc)) → Nat → Nat → Nat → List (List (Option Loc))
  | envs, _, _, 0 => envs
  | envs, i, c, k + 1 => bindEnvs env (putEnv envs env i (some (.cell c))) (i + 1) (c + 1) k

theorem bindAll_eq : ∀ (ws : List MV) (s : St) (i : Nat),
    s.bindAll i ws = { s with envs := bindEnvs s.env s.envs i s.cells.length ws.length, cells := s.cells ++ ws }
  | [], s, i => by simp [St.bindAll, bindEnvs]
  | w :: ws, s, i => by
    rw [St.bindAll, bindAll_eq ws, bindSlot_eq]
    simp [bindEnvs]

/-- The environments after copying the cells of a closure. -/
def loadEnvs (env : Nat) : List (List (Option Loc)) → Nat → List (Option Loc) → List (List (Option Loc))
  | envs, _, [] => envs
  | envs, i, l :: ls => loadEnvs env (putEnv envs env i l) (i + 1) ls

theorem loadClosure_eq : ∀ (ls : List (Option Loc)) (s : St) (i : Nat), s.loadClosure i ls = { s with envs := loadEnvs s.env s.envs i ls }
  | [], s, i => by simp [St.loadClosure, loadEnvs]
  | l :: ls, s, i => by
    rw [St.loadClosure, loadClosure_eq ls, setSlot_eq]
    simp [loadEnvs]

theorem putEnv_last (envs : List (List (Option Loc))) (fr : List (Option Loc)) (i : Nat) (l : Option Loc) :
    putEnv (envs ++ [fr]) envs.length i l = envs ++ [fr.set i l] := by
  rw [putEnv]
  simp

theorem set_next (pre : List (Option Loc)) (k : Nat) (l : Option Loc) (m : Nat) :
    (pre ++ List.replicate (k + 1 + m) none).set pre.length l = (pre ++ [l]) ++ List.replicate (k + m) none := by
  rw [List.set_append_right _ _ (Nat.le_refl _), Nat.sub_self, show k + 1 + m = (k + m) + 1 from by omega, List.replicate_succ]
  simp

/-- New cells in consecutive slots. -/
def newCells (c k : Nat) : List (Option Loc) := (List.range k).map (fun j => some (.cell (c + j)))

theorem newCells_succ (c k : Nat) : newCells c (k + 1) = some (.cell c) :: newCells (c + 1) k := by
  simp only [newCells, List.range_succ_eq_map, List.map_cons, List.map_map, Nat.add_zero]
  congr 1
  apply List.map_congr_left
  intro j _
  simp only [Function.comp, Nat.succ_eq_add_one]
  congr 2; omega

theorem bindEnvs_last (envs : List (List (Option Loc))) : ∀ (k : Nat) (pre : List (Option Loc)) (c m : Nat),
    bindEnvs envs.length (envs ++ [pre ++ List.replicate (k + m) none]) pre.length c k = envs ++ [pre ++ newCells c k ++ List.replicate m none]
  | 0, pre, c, m => by simp [bindEnvs, newCells]
  | k + 1, pre, c, m => by
    rw [bindEnvs, putEnv_last, set_next, show pre.length + 1 = (pre ++ [some (Loc.cell c)]).length from by simp, bindEnvs_last envs k]
    rw [newCells_succ]
    simp

theorem loadEnvs_last (envs : List (List (Option Loc))) : ∀ (ls pre : List (Option Loc)) (m : Nat),
    loadEnvs envs.length (envs ++ [pre ++ List.replicate (ls.length + m) none]) pre.length ls = envs ++ [pre ++ ls ++ List.replicate m none]
  | [], pre, m => by simp [loadEnvs]
  | l :: ls, pre, m => by
    rw [loadEnvs, putEnv_last, List.length_cons, set_next, show pre.length + 1 = (pre ++ [l]).length from by simp, loadEnvs_last envs ls]
    simp

/-- Binding the required arguments. -/
theorem bindArgs_exec {host : Host} {items : List Item} {tm : List Code} : ∀ (xs : List Sym) (a b : Nat) {s : St} {r : List Item},
    Here items tm s.code s.pc (bindArgs xs a b ++ r) → a + xs.length ≤ s.args.length → b + xs.length ≤ s.slots →
    ∃ v, Steps host s { s.bindAll b ((s.args.drop a).take xs.length) with pc := s.pc + (instrs (bindArgs xs a b)).length, res := v }
  | [], a, b, s, r, _, _, _ => by
    refine ⟨s.res, ?_⟩
    have : ({ s.bindAll b ((s.args.drop a).take 0) with pc := s.pc + (instrs (bindArgs [] a b)).length, res := s.res } : St) = s := by
      simp [bindArgs, instrs, St.bindAll]
    rw [List.length_nil, this]
    exact .refl _
  | x :: xs, a, b, s, r, hh, ha, hb => by
    simp only [List.length_cons] at ha hb
    simp only [bindArgs, List.cons_append] at hh
    have hst := hh.step host
    have hw : s.args[a]? = some (s.args[a]'(by omega)) := List.getElem?_eq_getElem _
    generalize hwe : s.args[a]'(by omega) = w at hw
    simp only [mapI, St.exec, hw, St.store] at hst
    have h1 : Here items tm (St.adv { s with res := w }).code (St.adv { s with res := w }).pc (.ins (.bind b x) :: (bindArgs xs (a + 1) (b + 1) ++ r)) := hh.next
    have hst1 := h1.step host
    have hslots : b < (St.adv { s with res := w }).slots := by
      have : (St.adv { s with res := w }).slots = s.slots := slots_congr rfl rfl
      omega
    simp only [mapI, St.exec, if_pos hslots] at hst1
    generalize hs2 : St.adv { (St.adv { s with res := w }).bindSlot b (St.adv { s with res := w }).res with res := .void } = s2 at hst1
    have e2 : s2 = { s with pc := s.pc + 2, res := .void, envs := putEnv s.envs s.env b (some (.cell s.cells.length)), cells := s.cells ++ [w] } := by
      rw [← hs2, bindSlot_eq]; rfl
    have hs2slots : s2.slots = s.slots := slots_put (s' := s2) (s := s) (i := b) (l := some (.cell s.cells.length)) (by rw [e2]) (by rw [e2])
    obtain ⟨v, hv⟩ := bindArgs_exec (host := host) xs (a + 1) (b + 1) (s := s2) (r := r) (by rw [e2]; exact h1.next) (by rw [e2]; simp only; omega)
      (by rw [hs2slots]; omega)
    refine ⟨v, .step hst (.step hst1 ?_)⟩
    have hd : s.args.drop a = w :: s.args.drop (a + 1) := by
      rw [List.drop_eq_getElem_cons (by omega), hwe]
    have : ({ s2.bindAll (b + 1) ((s2.args.drop (a + 1)).take xs.length) with
          pc := s2.pc + (instrs (bindArgs xs (a + 1) (b + 1))).length, res := v } : St) =
        { s.bindAll b ((s.args.drop a).take (x :: xs).length) with pc := s.pc + (instrs (bindArgs (x :: xs) a b)).length, res := v } := by
      rw [hd, List.length_cons, List.take_succ_cons, bindAll_eq, bindAll_eq, e2]
      simp only [List.length_cons, bindEnvs, List.length_append, List.length_nil, bindArgs, instrs, List.append_assoc, List.cons_append, List.nil_append,
        Nat.zero_add, St.mk.injEq, true_and, and_true]
      omega
    rw [this] at hv
    exact hv

theorem params_length {C : Type} {f : Formals} {vs : List (V C)} (h : acceptsN f vs.length = true) : (params f vs).length = f.ids.length := by
  rw [acceptsN] at h
  rw [params, Formals.ids]
  cases hr : f.rest with
  | none => rw [hr] at h; simp at h; simp [h]
  | some r => rw [hr] at h; simp at h; simp [h]

/-- The part of a clause head that binds the rest parameter. -/
def restItems (b : Nat) (f : Formals) : List Item :=
  match f.rest with
  | none => []
  | some r => [.ins (.doRest f.req.length), .ins (.bind (b + f.req.length) r)]

theorem clauseHead_eq (a b : Nat) (f : Formals) : clauseHead a b f =
    .ins (.pushEnv (a + b)) :: .ins .closureBind :: (bindArgs f.req 0 a ++ (restItems a f ++ [.ins .clearFrame])) := by
  rw [clauseHead, restItems]
  cases f.rest <;> simp

/-- The state after entering a clause: at position `n`, the frame cleared, a new environment, new cells. -/
def St.entered (s : St) (n : Nat) (v : MV) (fr : List (Option Loc)) (ps : List MV) : St :=
  { s with pc := n, res := v, cp := .undef, args := [], env := s.envs.length, envs := s.envs ++ [fr], cells := s.cells ++ ps }

/-- The head of a clause makes the environment of the call. -/
theorem head_exec {host : Host} {items : List Item} {tm : List Code} {nb : Nat} {f : Formals} {s : St} {r : List Item} {c : MC}
    (hh : Here items tm s.code s.pc (clauseHead c.cells.length (f.ids.length + nb) f ++ r)) (hcp : s.cp = .clo c) (hacc : acceptsN f s.args.length = true) :
    ∃ v, Steps host s (s.entered (s.pc + (instrs (clauseHead c.cells.length (f.ids.length + nb) f)).length) v
      (c.cells ++ newCells s.cells.length f.ids.length ++ List.replicate nb none) (params f s.args)) := by
  simp only [clauseHead_eq, List.cons_append, List.nil_append, List.append_assoc] at hh
  have hst := hh.step host
  simp only [mapI, St.exec] at hst
  have h1 : Here items tm (St.adv { s with env := s.envs.length, envs := s.envs ++ [List.replicate (c.cells.length + (f.ids.length + nb)) none] }).code
    (St.adv { s with env := s.envs.length, envs := s.envs ++ [List.replicate (c.cells.length + (f.ids.length + nb)) none] }).pc
    (.ins .closureBind :: (bindArgs f.req 0 c.cells.length ++ (restItems c.cells.length f ++ (.ins .clearFrame :: r)))) := hh.next
  have hst1 := h1.step host
  have hsl : c.cells.length ≤ (St.adv { s with env := s.envs.length, envs := s.envs ++ [List.replicate (c.cells.length + (f.ids.length + nb)) none] }).slots := by
    simp [St.slots, St.adv]
  simp only [mapI, St.exec] at hst1
  have hcp' : (St.adv { s with env := s.envs.length, envs := s.envs ++ [List.replicate (c.cells.length + (f.ids.length + nb)) none] }).cp = .clo c := hcp
  simp only [hcp', if_pos hsl] at hst1
  rw [loadClosure_eq] at hst1
  have hl := loadEnvs_last s.envs c.cells [] (f.ids.length + nb)
  simp only [List.nil_append, List.length_nil] at hl
  simp only [St.adv, hl] at hst1
  -- the state after copying the closure's cells
  generalize hs2 : ({ s with pc := s.pc + 1 + 1, env := s.envs.length, envs := s.envs ++ [c.cells ++ List.replicate (f.ids.length + nb) none] } : St) = s2
  have hs2' : step host (St.adv { s with env := s.envs.length, envs := s.envs ++ [List.replicate (c.cells.length + (f.ids.length + nb)) none] }) = .next s2 := by
    rw [← hs2]; exact hst1
  have hslots2 : s2.slots = c.cells.length + (f.ids.length + nb) := by rw [← hs2]; simp [St.slots]
  have h2 : Here items tm s2.code s2.pc (bindArgs f.req 0 c.cells.length ++ (restItems c.cells.length f ++ (.ins .clearFrame :: r))) := by
    rw [← hs2]
    exact h1.next
  have hids : f.ids.length = f.req.length + f.rest.toList.length := by simp [Formals.ids]
  have hreq : f.req.length ≤ s2.args.length := by
    rw [← hs2]
    rw [acceptsN] at hacc
    cases hr : f.rest with
    | none => rw [hr] at hacc; simp at hacc; simp only; omega
    | some r => rw [hr] at hacc; simp at hacc; simp only; omega
  obtain ⟨v, hv⟩ := bindArgs_exec (host := host) f.req 0 c.cells.length h2 (by omega) (by omega)
  rw [List.drop_zero, bindAll_eq] at hv
  have hv0 := hv
  generalize hs3 : ({ s2 with
      envs := bindEnvs s2.env s2.envs c.cells.length s2.cells.length (s2.args.take f.req.length).length,
      cells := s2.cells ++ s2.args.take f.req.length, pc := s2.pc + (instrs (bindArgs f.req 0 c.cells.length)).length, res := v } : St) = s3 at hv
  have hpre := Steps.step hst (Steps.step hs2' hv)
  have hb2 : bindEnvs s2.env s2.envs c.cells.length s2.cells.length (s2.args.take f.req.length).length =
      s.envs ++ [c.cells ++ newCells s.cells.length f.req.length ++ List.replicate (f.rest.toList.length + nb) none] := by
    rw [List.length_take, Nat.min_eq_left hreq, ← hs2]
    simp only
    have := bindEnvs_last s.envs f.req.length c.cells s.cells.length (f.rest.toList.length + nb)
    rw [← Nat.add_assoc, ← hids] at this
    exact this
  have e3 : s3 = { s with
      pc := s.pc + 1 + 1 + (instrs (bindArgs f.req 0 c.cells.length)).length, res := v, env := s.envs.length,
      envs := s.envs ++ [c.cells ++ newCells s.cells.length f.req.length ++ List.replicate (f.rest.toList.length + nb) none],
      cells := s.cells ++ s.args.take f.req.length } := by
    rw [← hs3, hb2, ← hs2]
  have h3 := h2.right
  cases hr : f.rest with
  | none =>
    rw [restItems, hr] at h3
    have h3' : Here items tm s3.code s3.pc (.ins .clearFrame :: r) := by
      rw [e3]
      have : s2.code = s.code := by rw [← hs2]
      rw [this] at h3
      have : s2.pc = s.pc + 1 + 1 := by rw [← hs2]
      rw [this] at h3
      simpa using h3
    have hst3 := h3'.step host
    simp only [mapI, St.exec] at hst3
    refine ⟨v, hpre.trans ?_⟩
    have hargs : s.args.take f.req.length = params f s.args := by
      rw [acceptsN, hr] at hacc
      simp at hacc
      rw [params, hr, hacc]
      simp
    have : St.adv { s3 with cp := .undef, args := [] } =
        s.entered (s.pc + (instrs (clauseHead c.cells.length (f.ids.length + nb) f)).length) v
          (c.cells ++ newCells s.cells.length f.ids.length ++ List.replicate nb none) (params f s.args) := by
      rw [e3, ← hargs, hids, hr]
      simp only [St.entered, clauseHead_eq, restItems, hr, instrs_append, instrs, List.length_append, List.length_cons, List.length_nil, St.adv, Option.toList, Nat.add_zero, Nat.zero_add,
        St.mk.injEq, true_and, and_true]
      omega
    rw [this] at hst3
    exact .one hst3
  | some y =>
    rw [restItems, hr] at h3
    have h3' : Here items tm s3.code s3.pc (.ins (.doRest f.req.length) :: .ins (.bind (c.cells.length + f.req.length) y) :: .ins .clearFrame :: r) := by
      rw [e3]
      have : s2.code = s.code := by rw [← hs2]
      rw [this] at h3
      have : s2.pc = s.pc + 1 + 1 := by rw [← hs2]
      rw [this] at h3
      simpa using h3
    have hst3 := h3'.step host
    have hreq3 : ¬ s3.args.length < f.req.length := by
      have : s3.args = s2.args := by rw [e3, ← hs2]
      rw [this]; omega
    simp only [mapI, St.exec, if_neg hreq3] at hst3
    have h4 : Here items tm (St.adv { s3 with res := listV (s3.args.drop f.req.length) }).code (St.adv { s3 with res := listV (s3.args.drop f.req.length) }).pc
      (.ins (.bind (c.cells.length + f.req.length) y) :: .ins .clearFrame :: r) := h3'.next
    have hst4 := h4.step host
    have hsl4 : c.cells.length + f.req.length < (St.adv { s3 with res := listV (s3.args.drop f.req.length) }).slots := by
      rw [e3]
      simp only [St.slots, St.adv, List.getElem?_concat_length, List.length_append, newCells, List.length_map, List.length_range, List.length_replicate, hr,
        Option.toList, List.length_cons, List.length_nil]
      omega
    simp only [mapI, St.exec, if_pos hsl4] at hst4
    rw [bindSlot_eq] at hst4
    have h5 := h4.next
    generalize hs5 : St.adv { { St.adv { s3 with res := listV (s3.args.drop f.req.length) } with
        envs := putEnv (St.adv { s3 with res := listV (s3.args.drop f.req.length) }).envs (St.adv { s3 with res := listV (s3.args.drop f.req.length) }).env
          (c.cells.length + f.req.length) (some (.cell (St.adv { s3 with res := listV (s3.args.drop f.req.length) }).cells.length)),
        cells := (St.adv { s3 with res := listV (s3.args.drop f.req.length) }).cells ++
          [(St.adv { s3 with res := listV (s3.args.drop f.req.length) }).res] } with res := .void } = s5 at hst4
    have hput : putEnv (s.envs ++ [c.cells ++ newCells s.cells.length f.req.length ++ List.replicate (0 + 1 + nb) none]) s.envs.length
        (c.cells ++ newCells s.cells.length f.req.length).length (some (.cell (s.cells ++ s.args.take f.req.length).length)) =
        s.envs ++ [c.cells ++ newCells s.cells.length f.ids.length ++ List.replicate nb none] := by
      rw [putEnv_last, set_next, hids, hr]
      have h2s : s2.args = s.args := by rw [← hs2]
      rw [h2s] at hreq
      simp only [Option.toList, List.length_cons, List.length_nil, List.length_append, List.length_take, Nat.min_eq_left hreq, Nat.zero_add]
      have : newCells s.cells.length (f.req.length + 1) = newCells s.cells.length f.req.length ++ [some (.cell (s.cells.length + f.req.length))] := by
        simp [newCells, List.range_succ]
      rw [this]
      simp
    have hl2 : (c.cells ++ newCells s.cells.length f.req.length).length = c.cells.length + f.req.length := by simp [newCells]
    rw [hl2] at hput
    have e5 : s5 = { s with
        pc := s.pc + 1 + 1 + (instrs (bindArgs f.req 0 c.cells.length)).length + 1 + 1, res := .void, env := s.envs.length,
        envs := s.envs ++ [c.cells ++ newCells s.cells.length f.ids.length ++ List.replicate nb none], cells := s.cells ++ params f s.args } := by
      rw [← hs5, e3, hr]
      simp only [St.adv, Option.toList, List.length_cons, List.length_nil]
      rw [hput]
      simp only [params, hr, Option.isSome, if_true, List.append_assoc]
    have h5' : Here items tm s5.code s5.pc (.ins .clearFrame :: r) := by
      rw [e5]
      have : s3.pc = s.pc + 1 + 1 + (instrs (bindArgs f.req 0 c.cells.length)).length := by rw [e3]
      have hc3 : s3.code = s.code := by rw [e3]
      simp only [St.adv, hc3, this] at h5
      exact h5
    have hst5 := h5'.step host
    simp only [mapI, St.exec] at hst5
    refine ⟨.void, hpre.trans (.step hst3 (.step hst4 ?_))⟩
    have : St.adv { s5 with cp := .undef, args := [] } =
        s.entered (s.pc + (instrs (clauseHead c.cells.length (f.ids.length + nb) f)).length) .void
          (c.cells ++ newCells s.cells.length f.ids.length ++ List.replicate nb none) (params f s.args) := by
      rw [e5]
      simp only [St.entered, clauseHead_eq, restItems, hr, instrs_append, instrs, List.length_append, List.length_cons, List.length_nil, St.adv, St.mk.injEq, true_and, and_true]
      omega
    rw [this] at hst5
    exact .one hst5

/-- What follows a clause starts with the clause's label. -/
theorem clauses_lab {cs : List Cl} {fvs : List Sym} {bounds : List (List Sym)} {p n m l : Nat} {tm tm' : List Code} {is : List Item}
    (h : compileClauses cs fvs bounds (some p) n tm = .ok (is, some l, m, tm')) (r : List Item) :
    ∃ r', is ++ .lab l :: r = .lab p :: r' := by
  cases cs with
  | nil =>
    simp only [compileClauses, Res.ok.injEq, Prod.mk.injEq, Option.some.injEq] at h
    obtain ⟨rfl, rfl, _⟩ := h
    exact ⟨r, rfl⟩
  | cons c cs =>
    obtain ⟨f, body⟩ := c
    rw [compileClauses] at h
    obtain ⟨⟨bi, n1, t1⟩, h1, h⟩ := Res.bind_eq_ok.1 h
    obtain ⟨⟨ri, last, n2, t2⟩, h2, h⟩ := Res.bind_eq_ok.1 h
    simp only [Res.ok.injEq, Prod.mk.injEq] at h
    obtain ⟨rfl, _⟩ := h
    exact ⟨_, rfl⟩

/-- The test at the start of a clause. -/
theorem entry_exec {host : Host} {items : List Item} {tm : List Code} {prev : Option Nat} {f : Formals} {l : Nat} {s : St} {r : List Item}
    (hh : Here items tm s.code s.pc (clauseEntry prev f l ++ r)) (hres : prev ≠ none → s.res = .num s.args.length) :
    Steps host s { s with
      pc := if acceptsN f s.args.length then s.pc + (instrs (clauseEntry prev f l)).length else labPos items l
      res := .num s.args.length } := by
  have hbr : ∀ (s1 : St), s1.args = s.args → s1.res = .num s.args.length →
      Here items tm s1.code s1.pc (.ins (if f.rest.isSome then .branchlt f.req.length l else .branchne f.req.length l) :: r) →
      step host s1 = .next { s1 with pc := if acceptsN f s.args.length then s1.pc + 1 else labPos items l } := by
    intro s1 ha hr h1
    have hst := h1.step host
    rw [hst, acceptsN]
    by_cases hs : f.rest.isSome = true
    · simp only [hs, if_true, mapI, St.exec, hr]
      by_cases hle : f.req.length ≤ s.args.length
      · rw [if_neg (by omega), if_pos (by simpa using hle), ← hr]; rfl
      · rw [if_pos (by omega), if_neg (by simpa using hle)]
    · simp only [hs, mapI, St.exec, hr]
      by_cases hle : f.req.length = s.args.length
      · simp [hle, St.adv, hr]
      · simp [hle, Ne.symm hle]
  cases prev with
  | none =>
    simp only [clauseEntry, List.cons_append, List.nil_append] at hh
    have hst := hh.step host
    simp only [mapI, St.exec, St.load, St.store] at hst
    have h2 := hbr (St.adv { s with res := .num s.args.length }) rfl rfl hh.next
    refine .step hst (.one ?_)
    rw [h2]
    simp only [clauseEntry, instrs, List.length_cons, List.length_nil, St.adv]
  | some p =>
    simp only [clauseEntry, List.cons_append, List.nil_append] at hh
    have h2 := hbr s rfl (hres (by simp)) hh.skip
    refine .one ?_
    rw [h2, ← hres (by simp)]
    simp only [clauseEntry, instrs, List.length_cons, List.length_nil]

/-- Entering a procedure: the first clause that accepts the number of arguments is entered; if there is none the machine signals an error. -/
theorem clauses_exec {host : Host} {items : List Item} {tm : List Code} {fvs : List Sym} {c : MC} (hcl : c.cells.length = fvs.length) :
    ∀ (cs : List Cl) (bounds : List (List Sym)) (prev : Option Nat) (n : Nat) (tm0 : List Code) (is : List Item) (l m : Nat) (tm1 : List Code) (s : St),
    compileClauses cs fvs bounds prev n tm0 = .ok (is, some l, m, tm1) → hasClausesC cs = true → (∀ p, prev = some p → p < n) →
    Here items tm s.code s.pc (is ++ [.lab l, .ins .doArityError]) → (prev ≠ none → s.res = .num s.args.length) →
    s.cp = .clo c → List.Forall₂ FitCl cs bounds →
    (∀ f body, select cs s.args.length = some (f, body) → ∃ v nb p n' bi m' ta tb, compileBody body (clauseScope fvs f) true n' ta = .ok (bi, m', tb) ∧
      (∃ new, tm1 = new ++ tb) ∧ Cl.mk f body ∈ cs ∧ (boundVarsSeq body []).1.length ≤ nb ∧
      Steps host s (s.entered p v (c.cells ++ newCells s.cells.length f.ids.length ++ List.replicate nb none) (params f s.args)) ∧
      Here items tm s.code p bi) ∧
    (select cs s.args.length = none → ∃ s', Steps host s s' ∧ step host s' = .err)
  | [], _, prev, n, tm0, is, l, m, tm1, s, h, _, _, hh, _, _, _ => by
    refine ⟨fun f body hs => by simp [select] at hs, fun _ => ⟨s, .refl _, ?_⟩⟩
    simp only [compileClauses, Res.ok.injEq, Prod.mk.injEq] at h
    obtain ⟨rfl, _⟩ := h
    have := (Here.skip hh).step host
    rw [this]; rfl
  | .mk f body :: cs, b :: bounds, prev, n, tm0, is, l, m, tm1, s, h, hc, hp, hh, hres, hcp, .cons hfit hfits => by
    simp only [hasClausesC, Bool.and_eq_true] at hc
    obtain ⟨⟨bi, n1, t1⟩, h1, o1⟩ := compileBody_ok body (clauseScope fvs f) true (n + 1) tm0 hc.1
    have hp' : ∀ p, some n = some p → p < n1 := by
      rintro p hp'
      have := o1.le
      simp only at this
      cases hp'
      omega
    obtain ⟨⟨ri, last, n2, t2⟩, h2, o2⟩ := compileClauses_ok cs fvs bounds (some n) n1 t1 hc.2 hp'
    simp only [compileClauses, h1, h2, Res.ok_bind, List.tail_cons, List.headD_cons, Res.ok.injEq, Prod.mk.injEq] at h
    obtain ⟨rfl, rfl, rfl, rfl⟩ := h
    simp only [List.append_assoc] at hh
    have he := entry_exec (host := host) hh hres
    have hfit' : f.ids.length + (boundVarsSeq body []).1.length ≤ b.length := hfit
    by_cases hacc : acceptsN f s.args.length = true
    · rw [if_pos hacc] at he
      refine ⟨fun f' body' hs => ?_, fun hs => by rw [select, if_pos hacc] at hs; cases hs⟩
      rw [select, if_pos hacc] at hs
      simp only [Option.some.injEq, Prod.mk.injEq] at hs
      obtain ⟨rfl, rfl⟩ := hs
      obtain ⟨nb, hnb⟩ : ∃ nb, b.length = f.ids.length + nb := ⟨b.length - f.ids.length, by omega⟩
      have hh2 := hh.right
      rw [hnb, ← hcl] at hh2
      obtain ⟨v, hv⟩ := head_exec (host := host) (s := { s with pc := s.pc + (instrs (clauseEntry prev f n)).length, res := .num s.args.length }) hh2 hcp hacc
      refine ⟨v, nb, _, n + 1, bi, n1, tm0, t1, h1, o2.ext, by simp, by omega, he.trans hv, hh2.right.left⟩
    · rw [if_neg hacc] at he
      obtain ⟨r', hr'⟩ := clauses_lab h2 [.ins .doArityError]
      have hh2 := hh.right.right.right
      have hlab : labPos items n = _ := (hr' ▸ hh2).lab
      rw [← hlab] at hh2
      obtain ⟨i1, i2⟩ := clauses_exec hcl cs bounds (some n) n1 t1 ri l n2 t2 { s with pc := labPos items n, res := .num s.args.length } h2 hc.2 hp' hh2
        (fun _ => rfl) hcp hfits
      have hsel : select (.mk f body :: cs) s.args.length = select cs s.args.length := by rw [select, if_neg hacc]
      rw [hsel]
      refine ⟨fun f' body' hs => ?_, fun hs => ?_⟩
      · obtain ⟨v, nb, p, n', bi', m', ta, tb, j1, j2, j3, j4, j5, j6⟩ := i1 f' body' hs
        exact ⟨v, nb, p, n', bi', m', ta, tb, j1, j2, List.mem_cons_of_mem _ j3, j4, he.trans j5, j6⟩
      · obtain ⟨s', j1, j2⟩ := i2 hs
        exact ⟨s', he.trans j1, j2⟩

end Minim.Jit

import Verif.LibTail

set_option autoImplicit false

/-!
# map, for-each, andmap and ormap with several lists (C109)

The second clauses of prelude.min:1018-1073.
-/

namespace Minim.Fix

open Minim.Sx Minim.Core Minim.Jit Minim.Lib

variable {P : Prims} {Q : Sym → Prop} {nm : Int → Nat} {σ : RS} {Γ : List (Sym × RV)} {g1 g2 g3 g4 g5 : RV}

/-- Two calls of a local procedure. -/
theorem KOk.loc2 {K : Fns} (h : KOk P Q σ Γ K) {x : Sym} {g : RV} {ws ws' : List RV} {r r' : RV} (d : List RV → Bool) (hx : Γ.lookup x = some g) (hg : g ≠ .unbound) (h1 : ZP P Q σ g ws r) (h2 : ZP P Q σ g ws' r') :
    KOk P Q σ Γ (K.add x (two d ws r ws' r')) := by
  refine h.loc hx hg ?_
  intro vs v ps hv hp
  unfold two at hv
  split at hv
  · exact one_ok h1 _ _ _ hv hp
  · exact one_ok h2 _ _ _ hv hp

theorem ZB.run {r : E → Option RV} (n : Nat) {K : Fns} {es : List E} {v : RV} (hK : KOk P Q σ Γ K) (h : VC (runB P Q σ r n K Γ es) v) : ZB P Q σ Γ es v := by
  obtain ⟨ps, h1, h2⟩ := h.get
  exact (run_all n K Γ hK).2.2 _ _ _ h1 h2

/-- The first argument is this C function. -/
def firstIs (p : Nat) : List RV → Bool
  | [.clo (.prim q _), _] => Nat.beq q p
  | _ => false

/-- C functions as values. -/
def cf : E → Option RV
  | .var x => some (.clo (.prim (code x) 1))
  | _ => none

/-- A C function as a value. -/
abbrev cfn (x : Sym) : RV := .clo (.prim (code x) 1)

/-- Specification: the arguments of the calls, one list after the other. -/
def rows : Nat → List (List RV) → List (List RV)
  | 0, _ => []
  | n + 1, wss => wss.map (fun ws => ws.headD .void) :: rows n (wss.map List.tail)

theorem z_nulls (C : Ctx Q σ) (L : Laws P nm) (h : IsClo σ (mapEnv g1 g2 g3 g4 g5) (recCls prelude_78 3) g4) (wss : List (List RV)) :
    ZP P Q σ g4 [cfn S.«null?», listV (wss.map listV)] (ask (wss.any List.isEmpty)) := by
  have : ∀ wss : List (List RV), List.Forall₂ (fun w r => ZP P Q σ (cfn S.«null?») [w] r) (wss.map listV) (wss.map fun ws => ask ws.isEmpty) := by
    intro wss
    induction wss with
    | nil => exact .nil
    | cons ws wss ih =>
      refine .cons (.prim ⟨rfl, by decide⟩ ?_) ih
      rw [L.null]
      cases ws <;> rfl
  have := z_ormap1 C L h (f := cfn S.«null?») nofun _ _ (this wss)
  rw [List.any_map] at this
  have e : ((fun r => !isFalse r) ∘ fun ws : List RV => ask ws.isEmpty) = List.isEmpty := by
    funext ws
    cases ws <;> rfl
  rwa [e] at this

theorem z_heads (C : Ctx Q σ) (L : Laws P nm) (h : IsClo σ (mapEnv g1 g2 g3 g4 g5) (recCls prelude_78 1) g2) (wss : List (List RV)) (hw : wss.any List.isEmpty = false) :
    ZP P Q σ g2 [cfn S.«$car», listV (wss.map listV)] (listV (wss.map (fun ws => ws.headD .void))) ∧ ZP P Q σ g2 [cfn S.«$cdr», listV (wss.map listV)] (listV ((wss.map List.tail).map listV)) := by
  have : ∀ wss : List (List RV), wss.any List.isEmpty = false → List.Forall₂ (fun w r => ZP P Q σ (cfn S.«$car») [w] r) (wss.map listV) (wss.map (fun ws => ws.headD .void)) ∧
      List.Forall₂ (fun w r => ZP P Q σ (cfn S.«$cdr») [w] r) (wss.map listV) ((wss.map List.tail).map listV) := by
    intro wss
    induction wss with
    | nil => exact fun _ => ⟨.nil, .nil⟩
    | cons ws wss ih =>
      intro hw
      rw [List.any_cons, Bool.or_eq_false_iff] at hw
      obtain ⟨i1, i2⟩ := ih hw.2
      match ws, hw.1 with
      | w :: ws, _ => exact ⟨.cons (.prim ⟨rfl, by decide⟩ (L.car _ _)) i1, .cons (.prim ⟨rfl, by decide⟩ (L.cdr _ _)) i2⟩
  obtain ⟨h1, h2⟩ := this wss hw
  exact ⟨z_map1 (f := cfn S.«$car») C L h nofun h1, z_map1 (f := cfn S.«$cdr») C L h nofun h2⟩

theorem d_applyRow (C : Ctx Q σ) {c : RC} {row : List RV} {r : RV} (h : ZP P Q σ (.clo c) row r) : Does P Q σ S.apply [.clo c, listV row] r :=
  ⟨.clo .apply, nofun, C.apply, .apply (unlist_listV row) h⟩

theorem any_zero {wss : List (List RV)} (h : ∀ ws ∈ wss, ws.length = 0) (hw : wss ≠ []) : wss.any List.isEmpty = true := by
  match wss, hw with
  | ws :: wss, _ =>
    have := h ws (by simp)
    match ws, this with
    | [], _ => rfl

theorem any_succ {n : Nat} : ∀ {wss : List (List RV)}, (∀ ws ∈ wss, ws.length = n + 1) → wss.any List.isEmpty = false
  | [], _ => rfl
  | ws :: wss, h => by
    have h1 := h ws (by simp)
    rw [List.any_cons, any_succ fun us hu => h us (by simp [hu])]
    match ws, h1 with
    | _ :: _, _ => rfl

theorem tails_len {n : Nat} {wss : List (List RV)} (h : ∀ ws ∈ wss, ws.length = n + 1) : ∀ ws ∈ wss.map List.tail, ws.length = n := by
  intro ws hs
  obtain ⟨us, h1, rfl⟩ := List.mem_map.1 hs
  have := h us h1
  simp
  omega

/-- Closures of C functions in holes. -/
theorem hole_prim (C : Ctx Q σ) {x : Sym} (hx : Γ.lookup x = none) (hk : start.globs x = some (.clo (.prim (code x) 1))) (hp : Prot x) : Hole P Q σ Γ (.var x) (cfn x) := ⟨.glob hx (C.prim x 1 hk hp) nofun⟩

/-- `map` with several lists (prelude.min:1040-1048) -/
theorem d_mapN (C : Ctx Q σ) (L : Laws P nm) (c : RC) (k : Nat) (ws ws' : List RV) (wss : List (List RV)) (rs : List RV) (hk : fits k) (hw : ∀ us ∈ ws :: ws' :: wss, us.length = k)
    (hf : List.Forall₂ (fun row r => ZP P Q σ (.clo c) row r) (rows k (ws :: ws' :: wss)) rs) : Does P Q σ S.«map» (.clo c :: (ws :: ws' :: wss).map listV) (listV rs) := by
  obtain ⟨g1, g2, g3, g4, g5, h0, h1, h2, h3, a0, a1, a2, a3, b0, b1, b2, b3, b4, c0, c1, c2, c3⟩ := maps C
  refine ⟨h1, c1.ne, a1, ?_⟩
  refine .clo (f := ⟨[S.f, S.xs], some S.xss⟩) (body := body (valCls prelude_78 1) 3) c1 ?_ (params_ne (by simp [listV_ne])) ?_
  · simp [valCls, inner, prelude_78, lamCls, select, acceptsN, body]
  have hp : params ⟨[S.f, S.xs], some S.xss⟩ (.clo c :: (ws :: ws' :: wss).map listV) = [.clo c, listV ws, listV ((ws' :: wss).map listV)] := rfl
  rw [hp]
  have hc := z_checkArgs C L b4 S.«map» c hk _ hw
  refine .run (r := lp (listV rs)) 40 ((core_ok C L).hide.loc (x := S.«check-args!») (g := g5) (by krfl) b4.ne (one_ok hc)) ?_
  kvc
  khole
  refine .loop fun τ g s hg => ?_
  have C' := C.mono s
  have loop : ∀ (k : Nat) (wss : List (List RV)) (rs acc : List RV), wss ≠ [] → (∀ us ∈ wss, us.length = k) → List.Forall₂ (fun row r => ZP P Q σ (.clo c) row r) (rows k wss) rs →
      ZP P Q τ g [listV (wss.map listV), listV acc] (listV (acc.reverse ++ rs)) := by
    intro k
    induction k with
    | zero =>
      intro wss rs acc hn hl hf
      cases hf
      have hz := z_nulls C' L (b3.mono s) wss
      rw [any_zero hl hn] at hz
      refine .call 40 cf hg (((core_ok C' L).does (d_reverse C' L acc)).hide.loc (x := S.ormap1) (g := g4) (by krfl) b3.ne (one_ok hz)) (by simp [listV_ne]) ?_
      rw [List.append_nil]
      kvc
      all_goals exact hole_prim C' (by krfl) rfl (by decide)
    | succ k ih =>
      intro wss rs acc hn hl hf
      cases hf with
      | @cons _ r _ rs hr hf =>
        have hz := z_nulls C' L (b3.mono s) wss
        rw [any_succ hl] at hz
        obtain ⟨e1, e2⟩ := z_heads C' L (b1.mono s) wss (any_succ hl)
        have ha := d_applyRow C' (hr.mono s)
        have ih := ih (wss.map List.tail) rs (r :: acc) (by simpa using hn) (tails_len hl) hf
        rw [List.reverse_cons, List.append_assoc, List.cons_append, List.nil_append] at ih
        refine .call 40 cf hg (((core_ok C' L).does ha).hide.loc (x := S.ormap1) (g := g4) (by krfl) b3.ne (one_ok hz) |>.loc2 (x := S.map1) (g := g2) (firstIs (code S.«$car»)) (by krfl) b1.ne e1 e2
          |>.loc (x := S.loop) (g := g) (by krfl) hg.ne (one_ok ih)) (by simp [listV_ne]) ?_
        kvc
        all_goals exact hole_prim C' (by krfl) rfl (by decide)
  have := loop k (ws :: ws' :: wss) rs [] (by simp) hw hf
  refine .one (.run (r := nor) 20 ((core_ok C' L).hide.loc (x := S.loop) (g := g) (by krfl) hg.ne (one_ok this)) ?_)
  kvc

/-- `for-each` with several lists (prelude.min:1021-1031) -/
theorem d_foreachN (C : Ctx Q σ) (L : Laws P nm) (c : RC) (k : Nat) (ws ws' : List RV) (wss : List (List RV)) (rs : List RV) (hk : fits k) (hw : ∀ us ∈ ws :: ws' :: wss, us.length = k)
    (hf : List.Forall₂ (fun row r => ZP P Q σ (.clo c) row r) (rows k (ws :: ws' :: wss)) rs) : Does P Q σ S.«for-each» (.clo c :: (ws :: ws' :: wss).map listV) (.void) := by
  obtain ⟨g1, g2, g3, g4, g5, h0, h1, h2, h3, a0, a1, a2, a3, b0, b1, b2, b3, b4, c0, c1, c2, c3⟩ := maps C
  refine ⟨h0, c0.ne, a0, ?_⟩
  refine .clo (f := ⟨[S.f, S.xs], some S.xss⟩) (body := body (valCls prelude_78 0) 3) c0 ?_ (params_ne (by simp [listV_ne])) ?_
  · simp [valCls, inner, prelude_78, lamCls, select, acceptsN, body]
  have hp : params ⟨[S.f, S.xs], some S.xss⟩ (.clo c :: (ws :: ws' :: wss).map listV) = [.clo c, listV ws, listV ((ws' :: wss).map listV)] := rfl
  rw [hp]
  have hc := z_checkArgs C L b4 S.«for-each» c hk _ hw
  refine .run (r := lp (.void)) 40 ((core_ok C L).hide.loc (x := S.«check-args!») (g := g5) (by krfl) b4.ne (one_ok hc)) ?_
  kvc
  khole
  refine .loop fun τ g s hg => ?_
  have C' := C.mono s
  have loop : ∀ (k : Nat) (wss : List (List RV)) (rs : List RV), wss ≠ [] → (∀ us ∈ wss, us.length = k) → List.Forall₂ (fun row r => ZP P Q σ (.clo c) row r) (rows k wss) rs →
      ZP P Q τ g [listV (wss.map listV)] (.void) := by
    intro k
    induction k with
    | zero =>
      intro wss rs hn hl hf
      cases hf
      have hz := z_nulls C' L (b3.mono s) wss
      rw [any_zero hl hn] at hz
      refine .call 40 cf hg ((core_ok C' L).hide.loc (x := S.ormap1) (g := g4) (by krfl) b3.ne (one_ok hz)) (by simp [listV_ne]) ?_
      kvc
      all_goals exact hole_prim C' (by krfl) rfl (by decide)
    | succ k ih =>
      intro wss rs hn hl hf
      cases hf with
      | @cons _ r _ rs hr hf =>
        have hz := z_nulls C' L (b3.mono s) wss
        rw [any_succ hl] at hz
        obtain ⟨e1, e2⟩ := z_heads C' L (b1.mono s) wss (any_succ hl)
        have ha := d_applyRow C' (hr.mono s)
        have ih := ih (wss.map List.tail) rs (by simpa using hn) (tails_len hl) hf
        refine .call 40 cf hg (((core_ok C' L).does ha).hide.loc (x := S.ormap1) (g := g4) (by krfl) b3.ne (one_ok hz) |>.loc2 (x := S.map1) (g := g2) (firstIs (code S.«$car»)) (by krfl) b1.ne e1 e2
          |>.loc (x := S.loop) (g := g) (by krfl) hg.ne (one_ok ih)) (by simp [listV_ne]) ?_
        kvc
        all_goals exact hole_prim C' (by krfl) rfl (by decide)
  have := loop k (ws :: ws' :: wss) rs (by simp) hw hf
  refine .one (.run (r := nor) 20 ((core_ok C' L).hide.loc (x := S.loop) (g := g) (by krfl) hg.ne (one_ok this)) ?_)
  kvc

/-- `andmap` with several lists (prelude.min:1053-1061) -/
theorem d_andmapN (C : Ctx Q σ) (L : Laws P nm) (c : RC) (k : Nat) (ws ws' : List RV) (wss : List (List RV)) (rs : List RV) (hk : fits k) (hw : ∀ us ∈ ws :: ws' :: wss, us.length = k)
    (hf : List.Forall₂ (fun row r => ZP P Q σ (.clo c) row r) (rows k (ws :: ws' :: wss)) rs) : Does P Q σ S.«andmap» (.clo c :: (ws :: ws' :: wss).map listV) (ask (rs.all (fun r => !isFalse r))) := by
  obtain ⟨g1, g2, g3, g4, g5, h0, h1, h2, h3, a0, a1, a2, a3, b0, b1, b2, b3, b4, c0, c1, c2, c3⟩ := maps C
  refine ⟨h2, c2.ne, a2, ?_⟩
  refine .clo (f := ⟨[S.f, S.xs], some S.xss⟩) (body := body (valCls prelude_78 2) 3) c2 ?_ (params_ne (by simp [listV_ne])) ?_
  · simp [valCls, inner, prelude_78, lamCls, select, acceptsN, body]
  have hp : params ⟨[S.f, S.xs], some S.xss⟩ (.clo c :: (ws :: ws' :: wss).map listV) = [.clo c, listV ws, listV ((ws' :: wss).map listV)] := rfl
  rw [hp]
  have hc := z_checkArgs C L b4 S.«andmap» c hk _ hw
  refine .run (r := lp (ask (rs.all (fun r => !isFalse r)))) 40 ((core_ok C L).hide.loc (x := S.«check-args!») (g := g5) (by krfl) b4.ne (one_ok hc)) ?_
  kvc
  khole
  refine .loop fun τ g s hg => ?_
  have C' := C.mono s
  have loop : ∀ (k : Nat) (wss : List (List RV)) (rs : List RV), wss ≠ [] → (∀ us ∈ wss, us.length = k) → List.Forall₂ (fun row r => ZP P Q σ (.clo c) row r) (rows k wss) rs →
      ZP P Q τ g [listV (wss.map listV)] (ask (rs.all (fun r => !isFalse r))) := by
    intro k
    induction k with
    | zero =>
      intro wss rs hn hl hf
      cases hf
      have hz := z_nulls C' L (b3.mono s) wss
      rw [any_zero hl hn] at hz
      refine .call 40 cf hg ((core_ok C' L).hide.loc (x := S.ormap1) (g := g4) (by krfl) b3.ne (one_ok hz)) (by simp [listV_ne]) ?_
      kvc
      all_goals exact hole_prim C' (by krfl) rfl (by decide)
    | succ k ih =>
      intro wss rs hn hl hf
      cases hf with
      | @cons _ r _ rs hr hf =>
        have hz := z_nulls C' L (b3.mono s) wss
        rw [any_succ hl] at hz
        obtain ⟨e1, e2⟩ := z_heads C' L (b1.mono s) wss (any_succ hl)
        have ha := d_applyRow C' (hr.mono s)
        rw [List.all_cons]
        cases hb : Jit.isFalse r
        · rw [Bool.not_false, Bool.true_and]
          have ih := ih (wss.map List.tail) rs (by simpa using hn) (tails_len hl) hf
          refine .call 40 cf hg (((core_ok C' L).does ha).hide.loc (x := S.ormap1) (g := g4) (by krfl) b3.ne (one_ok hz) |>.loc2 (x := S.map1) (g := g2) (firstIs (code S.«$car»)) (by krfl) b1.ne e1 e2
            |>.loc (x := S.loop) (g := g) (by krfl) hg.ne (one_ok ih)) (by simp [listV_ne]) ?_
          cases r with
          | lit l => cases l <;> first | cases hb; done | (kvc; all_goals exact hole_prim C' (by krfl) rfl (by decide))
          | _ => kvc; all_goals exact hole_prim C' (by krfl) rfl (by decide)
        · rw [Bool.not_true, Bool.false_and]
          obtain rfl : r = .lit .fls := by
            unfold Jit.isFalse at hb
            split at hb
            · rfl
            · cases hb
          refine .call 40 cf hg (((core_ok C' L).does ha).hide.loc (x := S.ormap1) (g := g4) (by krfl) b3.ne (one_ok hz) |>.loc2 (x := S.map1) (g := g2) (firstIs (code S.«$car»)) (by krfl) b1.ne e1 e2) (by simp [listV_ne]) ?_
          kvc
          all_goals exact hole_prim C' (by krfl) rfl (by decide)
  have := loop k (ws :: ws' :: wss) rs (by simp) hw hf
  refine .one (.run (r := nor) 20 ((core_ok C' L).hide.loc (x := S.loop) (g := g) (by krfl) hg.ne (one_ok this)) ?_)
  kvc

/-- `ormap` with several lists (prelude.min:1065-1073) -/
theorem d_ormapN (C : Ctx Q σ) (L : Laws P nm) (c : RC) (k : Nat) (ws ws' : List RV) (wss : List (List RV)) (rs : List RV) (hk : fits k) (hw : ∀ us ∈ ws :: ws' :: wss, us.length = k)
    (hf : List.Forall₂ (fun row r => ZP P Q σ (.clo c) row r) (rows k (ws :: ws' :: wss)) rs) : Does P Q σ S.«ormap» (.clo c :: (ws :: ws' :: wss).map listV) (ask (rs.any (fun r => !isFalse r))) := by
  obtain ⟨g1, g2, g3, g4, g5, h0, h1, h2, h3, a0, a1, a2, a3, b0, b1, b2, b3, b4, c0, c1, c2, c3⟩ := maps C
  refine ⟨h3, c3.ne, a3, ?_⟩
  refine .clo (f := ⟨[S.f, S.xs], some S.xss⟩) (body := body (valCls prelude_78 3) 3) c3 ?_ (params_ne (by simp [listV_ne])) ?_
  · simp [valCls, inner, prelude_78, lamCls, select, acceptsN, body]
  have hp : params ⟨[S.f, S.xs], some S.xss⟩ (.clo c :: (ws :: ws' :: wss).map listV) = [.clo c, listV ws, listV ((ws' :: wss).map listV)] := rfl
  rw [hp]
  have hc := z_checkArgs C L b4 S.«ormap» c hk _ hw
  refine .run (r := lp (ask (rs.any (fun r => !isFalse r)))) 40 ((core_ok C L).hide.loc (x := S.«check-args!») (g := g5) (by krfl) b4.ne (one_ok hc)) ?_
  kvc
  khole
  refine .loop fun τ g s hg => ?_
  have C' := C.mono s
  have loop : ∀ (k : Nat) (wss : List (List RV)) (rs : List RV), wss ≠ [] → (∀ us ∈ wss, us.length = k) → List.Forall₂ (fun row r => ZP P Q σ (.clo c) row r) (rows k wss) rs →
      ZP P Q τ g [listV (wss.map listV)] (ask (rs.any (fun r => !isFalse r))) := by
    intro k
    induction k with
    | zero =>
      intro wss rs hn hl hf
      cases hf
      have hz := z_nulls C' L (b3.mono s) wss
      rw [any_zero hl hn] at hz
      refine .call 40 cf hg ((core_ok C' L).hide.loc (x := S.ormap1) (g := g4) (by krfl) b3.ne (one_ok hz)) (by simp [listV_ne]) ?_
      kvc
      all_goals exact hole_prim C' (by krfl) rfl (by decide)
    | succ k ih =>
      intro wss rs hn hl hf
      cases hf with
      | @cons _ r _ rs hr hf =>
        have hz := z_nulls C' L (b3.mono s) wss
        rw [any_succ hl] at hz
        obtain ⟨e1, e2⟩ := z_heads C' L (b1.mono s) wss (any_succ hl)
        have ha := d_applyRow C' (hr.mono s)
        rw [List.any_cons]
        cases hb : Jit.isFalse r
        · rw [Bool.not_false, Bool.true_or]
          refine .call 40 cf hg (((core_ok C' L).does ha).hide.loc (x := S.ormap1) (g := g4) (by krfl) b3.ne (one_ok hz) |>.loc2 (x := S.map1) (g := g2) (firstIs (code S.«$car»)) (by krfl) b1.ne e1 e2) (by simp [listV_ne]) ?_
          cases r with
          | lit l => cases l <;> first | cases hb; done | (kvc; all_goals exact hole_prim C' (by krfl) rfl (by decide))
          | _ => kvc; all_goals exact hole_prim C' (by krfl) rfl (by decide)
        · rw [Bool.not_true, Bool.false_or]
          obtain rfl : r = .lit .fls := by
            unfold Jit.isFalse at hb
            split at hb
            · rfl
            · cases hb
          have ih := ih (wss.map List.tail) rs (by simpa using hn) (tails_len hl) hf
          refine .call 40 cf hg (((core_ok C' L).does ha).hide.loc (x := S.ormap1) (g := g4) (by krfl) b3.ne (one_ok hz) |>.loc2 (x := S.map1) (g := g2) (firstIs (code S.«$car»)) (by krfl) b1.ne e1 e2
            |>.loc (x := S.loop) (g := g) (by krfl) hg.ne (one_ok ih)) (by simp [listV_ne]) ?_
          kvc
          all_goals exact hole_prim C' (by krfl) rfl (by decide)
  have := loop k (ws :: ws' :: wss) rs (by simp) hw hf
  refine .one (.run (r := nor) 20 ((core_ok C' L).hide.loc (x := S.loop) (g := g) (by krfl) hg.ne (one_ok this)) ?_)
  kvc

end Minim.Fix

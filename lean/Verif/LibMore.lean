import Verif.LibList

set_option autoImplicit false

/-!
# Procedures of prelude.min that call others (C108)
-/

namespace Minim.Fix

open Minim.Sx Minim.Core Minim.Jit Minim.Lib

variable {P : Prims} {Q : Sym → Prop} {nm : Int → Nat} {σ : RS} {Γ : List (Sym × RV)}

/-- Specification: in every later store the top-level variable holds a procedure that returns `v` for the arguments `vs`. -/
def Does (P : Prims) (Q : Sym → Prop) (σ : RS) (x : Sym) (vs : List RV) (v : RV) : Prop := ∃ g, g ≠ .unbound ∧ Gl Q σ x g ∧ ZP P Q σ g vs v

theorem KOk.does {K : Fns} (h : KOk P Q σ [] K) {x : Sym} {ws : List RV} {r : RV} (hd : Does P Q σ x ws r) : KOk P Q σ [] (K.add x (one ws r)) := by
  obtain ⟨g, h1, h2, h3⟩ := hd
  exact h.glob rfl h2 h1 (one_ok h3)

/-- Two calls. -/
def two (d : List RV → Bool) (ws : List RV) (r : RV) (ws' : List RV) (r' : RV) : List RV → Option Cond := fun vs => match d vs with
  | true => one ws r vs
  | false => one ws' r' vs

theorem KOk.does2 {K : Fns} (h : KOk P Q σ [] K) {x : Sym} {ws ws' : List RV} {r r' : RV} (d : List RV → Bool) (hd : Does P Q σ x ws r) (hd' : Does P Q σ x ws' r') : KOk P Q σ [] (K.add x (two d ws r ws' r')) := by
  obtain ⟨g, h1, h2, h3⟩ := hd
  obtain ⟨g', h1', h2', h3'⟩ := hd'
  obtain rfl : g = g' := by have := h2.2.symm.trans h2'.2; cases this; rfl
  refine h.glob rfl h2 h1 ?_
  intro vs v ps hv hp
  unfold two at hv
  split at hv
  · exact one_ok h3 _ _ _ hv hp
  · exact one_ok h3' _ _ _ hv hp

theorem Does.mono {τ : RS} {x : Sym} {vs : List RV} {v : RV} (h : Does P Q σ x vs v) (s : Sub Q σ τ) : Does P Q τ x vs v := by
  obtain ⟨g, h1, h2, h3⟩ := h
  exact ⟨g, h1, h2.mono s, h3.mono s⟩

/-- A procedure that a plain definition makes. -/
theorem Does.plain (C : Ctx Q σ) (i : Nat) {e : E} {x : Sym} {vs : List RV} {v : RV} (h1 : (prelude ++ boot)[i]? = some e) (h2 : Fix.plain e = some x) (h3 : Prot x) (h : ZP P Q σ (fn e) vs v) : Does P Q σ x vs v :=
  ⟨fn e, nofun, C.plain i e x h1 h2 h3, h⟩

theorem d_length (C : Ctx Q σ) (L : Laws P nm) (ws : List RV) : Does P Q σ S.length [listV ws] (N nm ws.length) := .plain C 74 rfl rfl (by decide) (z_length C L ws)
theorem d_reverse (C : Ctx Q σ) (L : Laws P nm) (ws : List RV) : Does P Q σ S.reverse [listV ws] (listV ws.reverse) := .plain C 75 rfl rfl (by decide) (z_reverse C L ws)
theorem d_list (C : Ctx Q σ) (vs : List RV) (hv : ∀ v ∈ vs, v ≠ .unbound) : Does P Q σ S.list vs (listV vs) := .plain C 72 rfl rfl (by decide) (z_list hv)
theorem d_append (C : Ctx Q σ) (L : Laws P nm) (wss : List (List RV)) : Does P Q σ S.append (wss.map listV) (listV wss.flatten) := by
  obtain ⟨g, h1, h2, h3, h4, h5⟩ := z_append C L
  obtain ⟨g1, g', a1, a2⟩ := C.let1 76 prelude_77 S.append S.«non-list-error» rfl rfl (by decide)
  obtain rfl : g = g' := by have := h1.2.symm.trans a1.2; cases this; rfl
  refine ⟨g, a2.ne, h1, ?_⟩
  match wss with
  | [] => exact h2
  | [a] => simpa using h3 a
  | [a, b] => simpa using h4 a b
  | a :: b :: c :: wss => exact h5 a b c wss

theorem d_cmp (C : Ctx Q σ) {who p : Sym} (hx : (who, p) ∈ [(S.«=», S.«$fx2=»), (S.«>», S.«$fx2>»), (S.«<», S.«$fx2<»), (S.«>=», S.«$fx2>=»), (S.«<=», S.«$fx2<=»)]) :
    ∃ g g1 g2, Gl Q σ who g ∧ IsClo σ [(S.who, .sym who), (S.cmp, .clo (.prim (code p) 2)), (S.go, g2), (S.«non-number-error», g1)] cmpCls g := by
  obtain ⟨g1, g2, h⟩ := C.cmp
  obtain ⟨g, a, b⟩ := h who p hx
  exact ⟨g, g1, g2, a, b⟩

theorem d_eq (C : Ctx Q σ) (L : Laws P nm) {a b : Int} (ha : fits a) (hb : fits b) : Does P Q σ S.«=» [N nm a, N nm b] (ask (decide (a = b))) := by
  obtain ⟨g, g1, g2, h1, h2⟩ := d_cmp C (who := S.«=») (.head _)
  exact ⟨g, h2.ne, h1, z_cmp2 C L h2 (R := fun a b => decide (a = b)) L.eq ha hb⟩

theorem d_gt (C : Ctx Q σ) (L : Laws P nm) {a b : Int} (ha : fits a) (hb : fits b) : Does P Q σ S.«>» [N nm a, N nm b] (ask (decide (a > b))) := by
  obtain ⟨g, g1, g2, h1, h2⟩ := d_cmp C (who := S.«>») (.tail _ (.head _))
  exact ⟨g, h2.ne, h1, z_cmp2 C L h2 (R := fun a b => decide (a > b)) L.gt ha hb⟩

theorem d_lt (C : Ctx Q σ) (L : Laws P nm) {a b : Int} (ha : fits a) (hb : fits b) : Does P Q σ S.«<» [N nm a, N nm b] (ask (decide (a < b))) := by
  obtain ⟨g, g1, g2, h1, h2⟩ := d_cmp C (who := S.«<») (.tail _ (.tail _ (.head _)))
  exact ⟨g, h2.ne, h1, z_cmp2 C L h2 (R := fun a b => decide (a < b)) L.lt ha hb⟩

theorem d_ge (C : Ctx Q σ) (L : Laws P nm) {a b : Int} (ha : fits a) (hb : fits b) : Does P Q σ S.«>=» [N nm a, N nm b] (ask (decide (a ≥ b))) := by
  obtain ⟨g, g1, g2, h1, h2⟩ := d_cmp C (who := S.«>=») (.tail _ (.tail _ (.tail _ (.head _))))
  exact ⟨g, h2.ne, h1, z_cmp2 C L h2 (R := fun a b => decide (a ≥ b)) L.ge ha hb⟩

theorem d_add (C : Ctx Q σ) (L : Laws P nm) {a b : Int} (ha : fits a) (hb : fits b) (hab : fits (a + b)) : Does P Q σ S.«+» [N nm a, N nm b] (N nm (a + b)) := by
  obtain ⟨g1, g2, h0, h1, h2, h3, a0, a1, a2, a3, b0, b1, b2, b3⟩ := C.arith
  exact ⟨h0, b0.ne, a0, z_add2 C L b0 ha hb hab⟩

theorem d_sub (C : Ctx Q σ) (L : Laws P nm) {a b : Int} (ha : fits a) (hb : fits b) (hab : fits (a - b)) : Does P Q σ S.«-» [N nm a, N nm b] (N nm (a - b)) := by
  obtain ⟨g1, g2, h0, h1, h2, h3, a0, a1, a2, a3, b0, b1, b2, b3⟩ := C.arith
  exact ⟨h1, b1.ne, a1, z_sub2 C L b1 ha hb hab⟩

theorem d_succ (C : Ctx Q σ) (L : Laws P nm) {a : Int} (ha : fits a) (hn : fits (a + 1)) : Does P Q σ S.add1 [N nm a] (N nm (a + 1)) := .plain C 50 rfl rfl (by decide) (z_succ C L ha hn)
theorem d_pred (C : Ctx Q σ) (L : Laws P nm) {a : Int} (ha : fits a) (hn : fits (a - 1)) : Does P Q σ S.sub1 [N nm a] (N nm (a - 1)) := .plain C 51 rfl rfl (by decide) (z_pred C L ha hn)

/-- `zero?` (prelude.min:570-571) -/
theorem d_zero (C : Ctx Q σ) (L : Laws P nm) {a : Int} (ha : fits a) : Does P Q σ S.«zero?» [N nm a] (ask (decide (a = 0))) := by
  have := d_eq C L ha fits0
  rw [N0 L] at this
  refine .plain C 45 (e := prelude_46) rfl rfl (by decide) (.call 40 nor isClo_top ((core_ok C L).does this).hide (by simp [N]) ?_)
  kvc

/-- `negative-integer?` (prelude.min:561-562) -/
theorem d_negative (C : Ctx Q σ) (L : Laws P nm) {a : Int} (ha : fits a) : Does P Q σ S.«negative-integer?» [N nm a] (ask (decide (a < 0))) := by
  have := d_lt C L ha fits0
  rw [N0 L] at this
  refine .plain C 42 (e := prelude_43) rfl rfl (by decide) (.call 40 nor isClo_top ((core_ok C L).does this).hide (by simp [N]) ?_)
  kvc

/-- `non-negative-integer?` (prelude.min:564-565) -/
theorem d_nonneg (C : Ctx Q σ) (L : Laws P nm) {a : Int} (ha : fits a) : Does P Q σ S.«non-negative-integer?» [N nm a] (ask (decide (a ≥ 0))) := by
  have := d_ge C L ha fits0
  rw [N0 L] at this
  refine .plain C 43 (e := prelude_44) rfl rfl (by decide) (.call 40 nor isClo_top ((core_ok C L).does this).hide (by simp [N]) ?_)
  kvc

/-- `positive-integer?` (prelude.min:567-568) -/
theorem d_positive (C : Ctx Q σ) (L : Laws P nm) {a : Int} (ha : fits a) : Does P Q σ S.«positive-integer?» [N nm a] (ask (decide (a > 0))) := by
  have := d_gt C L ha fits0
  rw [N0 L] at this
  refine .plain C 44 (e := prelude_45) rfl rfl (by decide) (.call 40 nor isClo_top ((core_ok C L).does this).hide (by simp [N]) ?_)
  kvc

/-- The second argument is this literal. -/
def second (k : Nat) : List RV → Bool
  | [_, .lit (.const j)] => Nat.beq j k
  | _ => false

/-- `iota` (prelude.min:1075-1086) -/
theorem d_iota (C : Ctx Q σ) (L : Laws P nm) (n : Nat) (hn : fits n) : Does P Q σ S.iota [N nm n] (listV ((List.range n).map (fun i => N nm i))) := by
  have h0 := d_nonneg C L hn
  rw [decide_eq_true (by omega)] at h0
  refine .plain C 78 (e := prelude_79) rfl rfl (by decide) (.call 40 (lp (listV ((List.range n).map (fun i => N nm i)))) isClo_top ((core_ok C L).does h0).hide (by simp [N]) ?_)
  kvc
  khole
  refine .loop fun τ g s hg => ?_
  have C' := C.mono s
  have fit : ∀ m : Nat, m ≤ n → fits (m : Int) ∧ fits ((m : Int) - 1) := by
    intro m hm
    unfold fits at *
    omega
  have loop : ∀ (m : Nat), m ≤ n → ∀ (xs : List RV), ZP P Q τ g [N nm ((m : Int) - 1), listV xs] (listV (((List.range m).map (fun i => N nm i)) ++ xs)) := by
    intro m
    induction m using Nat.strongRecOn with
    | _ m ih =>
    intro hm xs
    have f1 := fit m hm
    have hgt := d_gt C' L f1.2 fits0
    have heq := d_eq C' L f1.2 fits0
    rw [N0 L] at hgt heq
    match m with
    | 0 =>
      rw [decide_eq_false (by omega)] at hgt heq
      refine .call 40 nor hg (((core_ok C' L).does hgt).does heq).hide (by simp [listV_ne, N]) ?_
      kvc
    | 1 =>
      rw [decide_eq_false (by omega)] at hgt
      rw [decide_eq_true (by omega)] at heq
      refine .call 40 nor hg (((core_ok C' L).does hgt).does heq).hide (by simp [listV_ne, N]) ?_
      have e : listV (((List.range 1).map (fun i => N nm i)) ++ xs) = .cons (.lit (.const 19)) (listV xs) := by rw [← N0 L]; rfl
      rw [e]
      kvc
    | m + 2 =>
      have ih := ih m (by omega) (by omega) (N nm m :: N nm ((m : Int) + 1) :: xs)
      have f0 := fit m (by omega)
      have fp := fit (m + 1) (by omega)
      have e1 : ((m + 2 : Nat) : Int) - 1 = (m : Int) + 1 := by omega
      have e2 : (m : Int) + 1 - 1 = m := by omega
      have e3 : (m : Int) + 1 - 2 = m - 1 := by omega
      have fq : fits ((m : Int) + 1) := by have := fp.1; simpa using this
      have s1 := d_sub C' L fq fits1 (by rw [e2]; exact f0.1)
      have s2 := d_sub C' L fq (b := 2) (by decide) (by rw [e3]; exact f0.2)
      rw [e2, N1 L] at s1
      rw [e3, N2 L] at s2
      rw [decide_eq_true (by omega), e1] at hgt
      have e : listV (((List.range (m + 2)).map (fun i => N nm i)) ++ xs) = listV (((List.range m).map (fun i => N nm i)) ++ N nm m :: N nm ((m : Int) + 1) :: xs) := by
        rw [List.range_succ, List.range_succ]
        simp
      rw [e, e1]
      refine .call 40 nor hg ((((core_ok C' L).does hgt).does2 (second 33) s2 s1).hide.loc (x := S.loop) (g := g) (by krfl) hg.ne (one_ok ih)) (by simp [listV_ne, N]) ?_
      kvc
  have hp := d_pred C' L hn (fit n (Nat.le_refl n)).2
  have := loop n (Nat.le_refl n) []
  rw [List.append_nil] at this
  refine .one (.run (r := nor) 20 (((core_ok C' L).does hp).hide.loc (x := S.loop) (g := g) (by krfl) hg.ne (one_ok this)) ?_)
  kvc

/-- `enumerate` (prelude.min:1088-1099) -/
theorem d_enumerate (C : Ctx Q σ) (L : Laws P nm) (ws : List RV) (hn : fits ws.length) :
    Does P Q σ S.enumerate [listV ws] (listV ((ws.zip (List.range ws.length)).map (fun p => .cons p.1 (N nm p.2)))) := by
  refine .plain C 79 (e := prelude_80) rfl rfl (by decide) (.call 40 (lp (listV ((ws.zip (List.range ws.length)).map (fun p => .cons p.1 (N nm p.2))))) isClo_top (core_ok C L).hide (by simp [listV_ne]) ?_)
  kvc
  khole
  refine .loop fun τ g s hg => ?_
  have C' := C.mono s
  have loop : ∀ (us : List RV) (i : Nat) (acc : List RV), i + us.length = ws.length →
      ZP P Q τ g [listV us, N nm i, listV acc] (listV (acc.reverse ++ (us.zip (List.range' i us.length)).map (fun p => .cons p.1 (N nm p.2)))) := by
    intro us
    induction us with
    | nil =>
      intro i acc _
      have e : acc.reverse ++ (([] : List RV).zip (List.range' i ([] : List RV).length)).map (fun p => (.cons p.1 (N nm p.2) : RV)) = acc.reverse := by simp
      rw [e]
      refine .call 40 nor hg ((core_ok C' L).c C' S.«$reverse» 1 rfl rfl (by decide) ⟨rfl, by decide⟩ (L.rev acc)).hide (by simp [listV_ne, N]) ?_
      kvc
    | cons u us ih =>
      intro i acc hi
      rw [List.length_cons] at hi
      have f0 : fits (i : Int) := by unfold fits at *; omega
      have f1 : fits ((i : Int) + 1) := by unfold fits at *; omega
      have ih := ih (i + 1) (.cons u (N nm i) :: acc) (by omega)
      have ha := d_add C' L f0 fits1 f1
      rw [N1 L] at ha
      have e : acc.reverse ++ ((u :: us).zip (List.range' i (u :: us).length)).map (fun p => (.cons p.1 (N nm p.2) : RV)) =
          ((.cons u (N nm i) : RV) :: acc).reverse ++ (us.zip (List.range' (i + 1) us.length)).map (fun p => (.cons p.1 (N nm p.2) : RV)) := by simp [List.range'_succ]
      rw [e]
      rw [show ((i + 1 : Nat) : Int) = (i : Int) + 1 from by omega] at ih
      refine .call 40 nor hg (((core_ok C' L).does ha).hide.loc (x := S.loop) (g := g) (by krfl) hg.ne (one_ok ih)) (by simp [listV_ne, N]) ?_
      kvc
  have := loop ws 0 [] (by omega)
  rw [show ((0 : Nat) : Int) = 0 from rfl, N0 L, List.reverse_nil, List.nil_append, ← List.range_eq_range'] at this
  refine .one (.run (r := nor) 20 ((core_ok C' L).hide.loc (x := S.loop) (g := g) (by krfl) hg.ne (one_ok this)) ?_)
  kvc

/-! ### Procedures applied to the elements of lists -/

variable {g1 g2 g3 g4 g5 : RV}

/-- `check-args!` (prelude.min:1000-1021): a procedure and lists of the same length. -/
theorem z_checkArgs (C : Ctx Q σ) (L : Laws P nm) (h : IsClo σ (mapEnv g1 g2 g3 g4 g5) (recCls prelude_78 4) g5) (who : Sym) (c : RC) {k : Nat} (hk : fits k) (wss : List (List RV)) (hw : ∀ ws ∈ wss, ws.length = k) :
    ZP P Q σ g5 [.sym who, .clo c, listV (wss.map listV)] .void := by
  refine .call 40 (lp .void) h (core_ok C L).hide (by simp [listV_ne]) ?_
  kvc
  khole
  refine .loop fun τ g s hg => ?_
  have C' := C.mono s
  have loop : ∀ (wss : List (List RV)), (∀ ws ∈ wss, ws.length = k) → ZP P Q τ g [N nm k, listV (wss.map listV)] .void := by
    intro wss
    induction wss with
    | nil =>
      intro _
      refine .call 40 nor hg (core_ok C' L).hide (by simp [listV_ne, N]) ?_
      kvc
    | cons ws wss ih =>
      intro hw
      have hl := L.length ws
      rw [hw ws (by simp)] at hl
      have he := d_eq C' L hk hk
      rw [decide_eq_true rfl] at he
      refine .call 40 nor hg ((((core_ok C' L).c C' S.«$length» 1 rfl rfl (by decide) ⟨rfl, by decide⟩ hl).does he).hide.loc (x := S.loop) (g := g) (by krfl) hg.ne (one_ok (ih (fun us hu => hw us (by simp [hu]))))) (by simp [listV_ne, N]) ?_
      kvc
  have first : ZP P Q τ g [.lit .fls, listV (wss.map listV)] .void := by
    match wss, hw with
    | [], _ =>
      refine .call 40 nor hg (core_ok C' L).hide (by simp [listV_ne]) ?_
      kvc
    | ws :: wss, hw =>
      have hl := L.length ws
      rw [hw ws (by simp)] at hl
      refine .call 40 nor hg (((core_ok C' L).c C' S.«$length» 1 rfl rfl (by decide) ⟨rfl, by decide⟩ hl).hide.loc (x := S.loop) (g := g) (by krfl) hg.ne (one_ok (loop wss (fun us hu => hw us (by simp [hu]))))) (by simp [listV_ne]) ?_
      kvc
  refine .one (.run (r := nor) 20 ((core_ok C' L).hide.loc (x := S.loop) (g := g) (by krfl) hg.ne (one_ok first)) ?_)
  kvc

/-- What the four procedures need. -/
theorem maps (C : Ctx Q σ) : ∃ g1 g2 g3 g4 g5 h0 h1 h2 h3, Gl Q σ S.«for-each» h0 ∧ Gl Q σ S.map h1 ∧ Gl Q σ S.andmap h2 ∧ Gl Q σ S.ormap h3 ∧
    IsClo σ (mapEnv g1 g2 g3 g4 g5) (recCls prelude_78 0) g1 ∧ IsClo σ (mapEnv g1 g2 g3 g4 g5) (recCls prelude_78 1) g2 ∧ IsClo σ (mapEnv g1 g2 g3 g4 g5) (recCls prelude_78 2) g3 ∧
    IsClo σ (mapEnv g1 g2 g3 g4 g5) (recCls prelude_78 3) g4 ∧ IsClo σ (mapEnv g1 g2 g3 g4 g5) (recCls prelude_78 4) g5 ∧
    IsClo σ (mapEnv g1 g2 g3 g4 g5) (valCls prelude_78 0) h0 ∧ IsClo σ (mapEnv g1 g2 g3 g4 g5) (valCls prelude_78 1) h1 ∧ IsClo σ (mapEnv g1 g2 g3 g4 g5) (valCls prelude_78 2) h2 ∧ IsClo σ (mapEnv g1 g2 g3 g4 g5) (valCls prelude_78 3) h3 := by
  obtain ⟨g1, g2, g3, g4, g5, h0, h1, h2, h3, a0, a1, a2, a3, b, c⟩ := C.maps
  exact ⟨g1, g2, g3, g4, g5, h0, h1, h2, h3, a0, a1, a2, a3, b 0 g1 (by simp), b 1 g2 (by simp), b 2 g3 (by simp), b 3 g4 (by simp), b 4 g5 (by simp), c 0 h0 (by simp), c 1 h1 (by simp), c 2 h2 (by simp), c 3 h3 (by simp)⟩

/-- `for-each` with one list (prelude.min:1023-1026) -/
theorem d_foreach (C : Ctx Q σ) (L : Laws P nm) (c : RC) (ws : List RV) (hk : fits ws.length) (hf : ∀ w ∈ ws, ∃ r, ZP P Q σ (.clo c) [w] r) : Does P Q σ S.«for-each» [.clo c, listV ws] .void := by
  obtain ⟨g1, g2, g3, g4, g5, h0, h1, h2, h3, a0, a1, a2, a3, b0, b1, b2, b3, b4, c0, c1, c2, c3⟩ := maps C
  refine ⟨h0, c0.ne, a0, .call 40 nor c0 ((core_ok C L).hide.loc (x := S.«check-args!») (g := g5) (by krfl) b4.ne (one_ok (z_checkArgs C L b4 S.«for-each» c hk [ws] (by simp)))
    |>.loc (x := S.«for-each1») (g := g1) (by krfl) b0.ne (one_ok (z_foreach1 (f := .clo c) C L b0 nofun ws hf))) (by simp [listV_ne]) ?_⟩
  kvc
  simp [listV_ne]

/-- `map` with one list (prelude.min:1036-1039) -/
theorem d_map (C : Ctx Q σ) (L : Laws P nm) (c : RC) (ws rs : List RV) (hk : fits ws.length) (hf : List.Forall₂ (fun w r => ZP P Q σ (.clo c) [w] r) ws rs) : Does P Q σ S.map [.clo c, listV ws] (listV rs) := by
  obtain ⟨g1, g2, g3, g4, g5, h0, h1, h2, h3, a0, a1, a2, a3, b0, b1, b2, b3, b4, c0, c1, c2, c3⟩ := maps C
  refine ⟨h1, c1.ne, a1, .call 40 nor c1 ((core_ok C L).hide.loc (x := S.«check-args!») (g := g5) (by krfl) b4.ne (one_ok (z_checkArgs C L b4 S.map c hk [ws] (by simp)))
    |>.loc (x := S.map1) (g := g2) (by krfl) b1.ne (one_ok (z_map1 (f := .clo c) C L b1 nofun hf))) (by simp [listV_ne]) ?_⟩
  kvc
  simp [listV_ne]

/-- `andmap` with one list (prelude.min:1049-1052) -/
theorem d_andmap (C : Ctx Q σ) (L : Laws P nm) (c : RC) (ws rs : List RV) (hk : fits ws.length) (hf : List.Forall₂ (fun w r => ZP P Q σ (.clo c) [w] r) ws rs) :
    Does P Q σ S.andmap [.clo c, listV ws] (ask (rs.all (fun r => !isFalse r))) := by
  obtain ⟨g1, g2, g3, g4, g5, h0, h1, h2, h3, a0, a1, a2, a3, b0, b1, b2, b3, b4, c0, c1, c2, c3⟩ := maps C
  refine ⟨h2, c2.ne, a2, .call 40 nor c2 ((core_ok C L).hide.loc (x := S.«check-args!») (g := g5) (by krfl) b4.ne (one_ok (z_checkArgs C L b4 S.andmap c hk [ws] (by simp)))
    |>.loc (x := S.andmap1) (g := g3) (by krfl) b2.ne (one_ok (z_andmap1 (f := .clo c) C L b2 nofun ws rs hf))) (by simp [listV_ne]) ?_⟩
  kvc
  simp [listV_ne]

/-- `ormap` with one list (prelude.min:1062-1065) -/
theorem d_ormap (C : Ctx Q σ) (L : Laws P nm) (c : RC) (ws rs : List RV) (hk : fits ws.length) (hf : List.Forall₂ (fun w r => ZP P Q σ (.clo c) [w] r) ws rs) :
    Does P Q σ S.ormap [.clo c, listV ws] (ask (rs.any (fun r => !isFalse r))) := by
  obtain ⟨g1, g2, g3, g4, g5, h0, h1, h2, h3, a0, a1, a2, a3, b0, b1, b2, b3, b4, c0, c1, c2, c3⟩ := maps C
  refine ⟨h3, c3.ne, a3, .call 40 nor c3 ((core_ok C L).hide.loc (x := S.«check-args!») (g := g5) (by krfl) b4.ne (one_ok (z_checkArgs C L b4 S.ormap c hk [ws] (by simp)))
    |>.loc (x := S.ormap1) (g := g4) (by krfl) b3.ne (one_ok (z_ormap1 (f := .clo c) C L b3 nofun ws rs hf))) (by simp [listV_ne]) ?_⟩
  kvc
  simp [listV_ne]

end Minim.Fix

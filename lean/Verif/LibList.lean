import Verif.LibCode

set_option autoImplicit false

/-!
# What the list and number procedures of the library compute (C108)
-/

namespace Minim.Fix

open Minim.Sx Minim.Core Minim.Jit Minim.Lib

variable {P : Prims} {Q : Sym → Prop} {nm : Int → Nat} {σ : RS} {Γ : List (Sym × RV)}

/-- One call of a C function. -/
theorem KOk.c {K : Fns} (h : KOk P Q σ Γ K) (C : Ctx Q σ) (x : Sym) (k : Nat) {ws : List RV} {r : RV} (hn : Γ.lookup x = none) (hk : start.globs x = some (.clo (.prim (code x) k))) (hp : Prot x) (hl : ws.length = k ∧ k ≤ 6)
    (hv : P.f RC (code x) ws = some r) : KOk P Q σ Γ (K.add x (one ws r)) := h.glob hn (C.prim x k hk hp) nofun (one_ok (.prim hl hv))

/-- A test that succeeds when a condition holds. -/
def yes (D : List RV → Prop) : List RV → Option Cond := fun vs => some (ask true, [D vs])

theorem yes_ok {g : RV} {D : List RV → Prop} (h : ∀ vs, D vs → ZP P Q σ g vs (ask true)) : ∀ vs v ps, yes D vs = some (v, ps) → conj ps → ZP P Q σ g vs v := by
  intro vs v ps hv hp
  cases hv
  exact h _ hp.1

/-- Specification: one list. -/
def IsList (vs : List RV) : Prop := ∃ ws, vs = [listV ws]

/-- Specification: one number. -/
def IsNum (nm : Int → Nat) (vs : List RV) : Prop := ∃ n, fits n ∧ vs = [N nm n]

/-- Pairs, and the tests for lists and numbers. -/
def core (nm : Int → Nat) : Fns := ((((base.add S.«list?» (yes IsList)).add S.«fixnum?» (yes (IsNum nm))).add S.«number?» (yes (IsNum nm))).add S.«integer?» (yes (IsNum nm))).add S.list
  (fun vs => some (listV vs, [∀ v ∈ vs, v ≠ .unbound]))

theorem num_prim (L : Laws P nm) {vs : List RV} (h : IsNum nm vs) : ZP P Q σ (.clo (.prim (code S.«fixnum?») 1)) vs (ask true) := by
  obtain ⟨n, hn, rfl⟩ := h
  exact .prim ⟨rfl, by decide⟩ (L.fix n hn)

theorem z_list {vs : List RV} (hv : ∀ v ∈ vs, v ≠ .unbound) : ZP P Q σ (fn prelude_73) vs (listV vs) := by
  refine .clo (Γ := []) (f := ⟨[], some S.args⟩) (body := [.var S.args]) isClo_top ?_ (params_ne hv) (.one (.loc ?_))
  · simp [prelude_73, clsOf, lamCls, select, acceptsN]
  · rfl

theorem core_ok (C : Ctx Q σ) (L : Laws P nm) : KOk P Q σ [] (core nm) := by
  refine ((((base_ok C L).glob rfl (C.prim S.«list?» 1 rfl (by decide)) nofun (yes_ok ?_)).glob rfl (C.prim S.«fixnum?» 1 rfl (by decide)) nofun (yes_ok fun _ => num_prim L)).glob rfl C.number.1 nofun (yes_ok fun _ => num_prim L)).glob rfl C.number.2 nofun (yes_ok fun _ => num_prim L)
    |>.glob rfl (C.plain 72 prelude_73 _ rfl rfl (by decide)) nofun ?_
  · rintro _ ⟨ws, rfl⟩
    refine .prim ⟨rfl, by decide⟩ ((L.list _).trans ?_)
    rw [unlist_listV]
    rfl
  · intro vs v ps hv hp
    cases hv
    exact z_list hp.1

theorem isList (ws : List RV) : IsList [listV ws] := ⟨ws, rfl⟩
theorem isNum {n : Int} (h : fits n) : IsNum nm [N nm n] := ⟨n, h, rfl⟩

theorem IsClo.ne {g : RV} {cs : List Cl} (h : IsClo σ Γ cs g) : g ≠ .unbound := by obtain ⟨ρ, rfl, _⟩ := h; nofun

/-! ### Lists -/

theorem z_length (C : Ctx Q σ) (L : Laws P nm) (ws : List RV) : ZP P Q σ (fn prelude_75) [listV ws] (N nm ws.length) := by
  refine .call 40 nor isClo_top ((core_ok C L).c C S.«$length» 1 rfl rfl (by decide) ⟨rfl, by decide⟩ (L.length ws)).hide (by simp [listV_ne]) ?_
  kvc

theorem z_reverse (C : Ctx Q σ) (L : Laws P nm) (ws : List RV) : ZP P Q σ (fn prelude_76) [listV ws] (listV ws.reverse) := by
  refine .call 40 nor isClo_top ((core_ok C L).c C S.«$reverse» 1 rfl rfl (by decide) ⟨rfl, by decide⟩ (L.rev ws)).hide (by simp [listV_ne]) ?_
  kvc

theorem z_append (C : Ctx Q σ) (L : Laws P nm) : ∃ g, Gl Q σ S.append g ∧ ZP P Q σ g [] .null ∧ (∀ ws, ZP P Q σ g [listV ws] (listV ws)) ∧
    (∀ ws us, ZP P Q σ g [listV ws, listV us] (listV (ws ++ us))) ∧ ∀ w1 w2 w3 (wss : List (List RV)), ZP P Q σ g ((w1 :: w2 :: w3 :: wss).map listV) (listV (w1 :: w2 :: w3 :: wss).flatten) := by
  obtain ⟨g1, g, h1, h2⟩ := C.let1 76 prelude_77 S.append S.«non-list-error» rfl rfl (by decide)
  refine ⟨g, h1, ?_, fun ws => ?_, fun ws us => ?_, fun w1 w2 w3 wss => ?_⟩
  · refine .call 40 nor h2 (core_ok C L).hide (by simp) ?_
    kvc
  · refine .call 40 nor h2 (core_ok C L).hide (by simp [listV_ne]) ?_
    kvc
  · refine .call 40 nor h2 ((core_ok C L).c C S.«$append2» 2 rfl rfl (by decide) ⟨rfl, by decide⟩ (L.app2 ws us)).hide (by simp [listV_ne]) ?_
    kvc
  · refine .clo (f := ⟨[], some S.xss⟩) (body := body (valCls prelude_77 0) 3) h2 ?_ (params_ne (by simp [listV_ne])) ?_
    · simp [valCls, inner, prelude_77, lamCls, select, acceptsN, body]
    have hp : params ⟨[], some S.xss⟩ ((w1 :: w2 :: w3 :: wss).map listV) = [listV ((w1 :: w2 :: w3 :: wss).map listV)] := rfl
    rw [hp]
    generalize (w1 :: w2 :: w3 :: wss) = wss
    refine ZB.one (Hole.get ?_)
    khole
    refine .loop fun τ g s hg => ?_
    have C' := C.mono s
    have loop : ∀ (us : List (List RV)) (acc : List RV), ZP P Q τ g [listV acc, listV (us.map listV)] (listV (us.reverse.flatten ++ acc)) := by
      intro us
      induction us with
      | nil =>
        intro acc
        refine .call 40 nor hg (core_ok C' L).hide (by simp [listV_ne]) ?_
        kvc
      | cons u us ih =>
        intro acc
        refine .call 40 nor hg (((core_ok C' L).c C' S.«$append2» 2 rfl rfl (by decide) ⟨rfl, by decide⟩ (L.app2 u acc)).hide.loc (x := S.loop) (g := g) (by krfl) hg.ne (one_ok (ih (u ++ acc)))) (by simp [listV_ne]) ?_
        simp only [List.reverse_cons, List.flatten_append, List.flatten_cons, List.flatten_nil, List.append_nil, List.append_assoc]
        kvc
    refine .one (.run (r := nor) 20 (((core_ok C' L).c C' S.«$reverse» 1 rfl rfl (by decide) ⟨rfl, by decide⟩ (L.rev (wss.map listV))).hide.loc (x := S.loop) (g := g) (by krfl) hg.ne (one_ok (loop wss.reverse []))) ?_)
    rw [List.append_nil, List.reverse_reverse, ← List.map_reverse]
    kvc

/-! ### One list -/

/-- The variables of the closures of `for-each`, `map`, `andmap` and `ormap`. -/
abbrev mapEnv (g1 g2 g3 g4 g5 : RV) : List (Sym × RV) := [(S.«check-args!», g5), (S.ormap1, g4), (S.andmap1, g3), (S.map1, g2), (S.«for-each1», g1)]

variable {g1 g2 g3 g4 g5 f : RV}

theorem z_foreach1 (C : Ctx Q σ) (L : Laws P nm) (h : IsClo σ (mapEnv g1 g2 g3 g4 g5) (recCls prelude_78 0) g1) (hf : f ≠ .unbound) :
    ∀ (ws : List RV), (∀ w ∈ ws, ∃ r, ZP P Q σ f [w] r) → ZP P Q σ g1 [f, listV ws] .void
  | [], _ => by
    refine .call 40 nor h (core_ok C L).hide (by simp [listV_ne, hf]) ?_
    kvc
  | w :: ws, hw => by
    obtain ⟨r, hr⟩ := hw w (by simp)
    have ih := z_foreach1 C L h hf ws (fun w hw' => hw w (by simp [hw']))
    refine .call 40 nor h ((core_ok C L).hide.loc (x := S.f) (g := f) (by krfl) hf (one_ok hr) |>.loc (x := S.«for-each1») (g := g1) (by krfl) h.ne (one_ok ih)) (by simp [listV_ne, hf]) ?_
    kvc

theorem z_map1 (C : Ctx Q σ) (L : Laws P nm) (h : IsClo σ (mapEnv g1 g2 g3 g4 g5) (recCls prelude_78 1) g2) (hf : f ≠ .unbound) {ws rs : List RV} (hw : List.Forall₂ (fun w r => ZP P Q σ f [w] r) ws rs) :
    ZP P Q σ g2 [f, listV ws] (listV rs) := by
  refine .call 40 (lp (listV rs)) h (core_ok C L).hide (by simp [listV_ne, hf]) ?_
  kvc
  khole
  refine .loop fun τ g s hg => ?_
  have C' := C.mono s
  have loop : ∀ (us rs acc : List RV), List.Forall₂ (fun w r => ZP P Q σ f [w] r) us rs → ZP P Q τ g [listV us, listV acc] (listV (acc.reverse ++ rs)) := by
    intro us
    induction us with
    | nil =>
      intro rs acc hw
      cases hw
      rw [List.append_nil]
      refine .call 40 nor hg ((core_ok C' L).glob rfl (C'.plain 75 prelude_76 S.reverse rfl rfl (by decide)) nofun (one_ok (z_reverse C' L acc))).hide (by simp [listV_ne]) ?_
      kvc
    | cons u us ih =>
      intro rs acc hw
      cases hw with
      | @cons _ r _ rs h1 h2 =>
      have := ih rs (r :: acc) h2
      rw [List.reverse_cons, List.append_assoc] at this
      refine .call 40 nor hg ((core_ok C' L).hide.loc (x := S.f) (g := f) (by krfl) hf (one_ok (h1.mono s)) |>.loc (x := S.loop) (g := g) (by krfl) hg.ne (one_ok this)) (by simp [listV_ne]) ?_
      kvc
  refine .one (.run (r := nor) 20 ((core_ok C' L).hide.loc (x := S.loop) (g := g) (by krfl) hg.ne (one_ok (loop ws rs [] hw))) ?_)
  kvc

theorem z_andmap1 (C : Ctx Q σ) (L : Laws P nm) (h : IsClo σ (mapEnv g1 g2 g3 g4 g5) (recCls prelude_78 2) g3) (hf : f ≠ .unbound) :
    ∀ (ws rs : List RV), List.Forall₂ (fun w r => ZP P Q σ f [w] r) ws rs → ZP P Q σ g3 [f, listV ws] (ask (rs.all (fun r => !isFalse r)))
  | [], rs, hw => by
    cases hw
    refine .call 40 nor h (core_ok C L).hide (by simp [listV_ne, hf]) ?_
    kvc
  | w :: ws, rs, hw => by
    cases hw with
    | @cons _ r _ rs hr hw =>
    have ih := z_andmap1 C L h hf ws rs hw
    refine .call 40 nor h ((core_ok C L).hide.loc (x := S.«pred?») (g := f) (by krfl) hf (one_ok hr) |>.loc (x := S.andmap1) (g := g3) (by krfl) h.ne (one_ok ih)) (by simp [listV_ne, hf]) ?_
    rw [List.all_cons]
    cases hr : Jit.isFalse r
    · rw [Bool.not_false, Bool.true_and]
      cases r with
      | lit l => cases l <;> first | cases hr; done | kvc
      | _ => kvc
    · rw [Bool.not_true, Bool.false_and]
      obtain rfl : r = .lit .fls := by
        unfold Jit.isFalse at hr
        split at hr
        · rfl
        · cases hr
      kvc

theorem z_ormap1 (C : Ctx Q σ) (L : Laws P nm) (h : IsClo σ (mapEnv g1 g2 g3 g4 g5) (recCls prelude_78 3) g4) (hf : f ≠ .unbound) :
    ∀ (ws rs : List RV), List.Forall₂ (fun w r => ZP P Q σ f [w] r) ws rs → ZP P Q σ g4 [f, listV ws] (ask (rs.any (fun r => !isFalse r)))
  | [], rs, hw => by
    cases hw
    refine .call 40 nor h (core_ok C L).hide (by simp [listV_ne, hf]) ?_
    kvc
  | w :: ws, rs, hw => by
    cases hw with
    | @cons _ r _ rs hr hw =>
    have ih := z_ormap1 C L h hf ws rs hw
    refine .call 40 nor h ((core_ok C L).hide.loc (x := S.«pred?») (g := f) (by krfl) hf (one_ok hr) |>.loc (x := S.ormap1) (g := g4) (by krfl) h.ne (one_ok ih)) (by simp [listV_ne, hf]) ?_
    rw [List.any_cons]
    cases hr : Jit.isFalse r
    · rw [Bool.not_false, Bool.true_or]
      cases r with
      | lit l => cases l <;> first | cases hr; done | kvc
      | _ => kvc
    · rw [Bool.not_true, Bool.false_or]
      obtain rfl : r = .lit .fls := by
        unfold Jit.isFalse at hr
        split at hr
        · rfl
        · cases hr
      kvc

/-! ### Comparisons -/

theorem z_cmp1 (C : Ctx Q σ) (L : Laws P nm) {who : Sym} {g g1 g2 : RV} {p : Nat} (h : IsClo σ [(S.who, .sym who), (S.cmp, .clo (.prim p 2)), (S.go, g2), (S.«non-number-error», g1)] cmpCls g) {a : Int} (ha : fits a) :
    ZP P Q σ g [N nm a] (N nm a) := by
  refine .call 40 nor h (core_ok C L).hide (by simp [N]) ?_
  kvc

theorem z_cmp2 (C : Ctx Q σ) (L : Laws P nm) {who : Sym} {g g1 g2 : RV} {p : Nat} (h : IsClo σ [(S.who, .sym who), (S.cmp, .clo (.prim p 2)), (S.go, g2), (S.«non-number-error», g1)] cmpCls g) {R : Int → Int → Bool}
    (hR : ∀ a b, fits a → fits b → P.f RC p [N nm a, N nm b] = some (ask (R a b))) {a b : Int} (ha : fits a) (hb : fits b) :
    ZP P Q σ g [N nm a, N nm b] (ask (R a b)) := by
  refine .call 40 nor h ((core_ok C L).hide.loc (x := S.cmp) (g := .clo (.prim p 2)) (by krfl) nofun (one_ok (.prim ⟨rfl, by decide⟩ (hR a b ha hb)))) (by simp [N]) ?_
  kvc

/-- Specification: the relation holds between neighbours. -/
def inOrder (R : Int → Int → Bool) : Int → List Int → Bool
  | _, [] => true
  | a, b :: bs => R a b && inOrder R b bs

theorem z_cmpN (C : Ctx Q σ) (L : Laws P nm) {who : Sym} {g g1 g2 : RV} {p : Nat} (h : IsClo σ [(S.who, .sym who), (S.cmp, .clo (.prim p 2)), (S.go, g2), (S.«non-number-error», g1)] cmpCls g) {R : Int → Int → Bool}
    (hR : ∀ a b, fits a → fits b → P.f RC p [N nm a, N nm b] = some (ask (R a b))) {a b c : Int} {ns : List Int} (hf : ∀ n ∈ a :: b :: c :: ns, fits n) :
    ZP P Q σ g ((a :: b :: c :: ns).map (N nm)) (ask (inOrder R a (b :: c :: ns))) := by
  refine .clo (f := ⟨[S.x], some S.rest⟩) (body := body cmpCls 3) h ?_ (params_ne (by simp [N])) ?_
  · simp [cmpCls, recCls, prelude_42, lamCls, select, acceptsN, body]
  have hp : params ⟨[S.x], some S.rest⟩ ((a :: b :: c :: ns).map (N nm)) = [N nm a, listV ((b :: c :: ns).map (N nm))] := rfl
  rw [hp]
  generalize b :: c :: ns = ns at hf ⊢
  have ha : fits a := hf a (by simp)
  refine .one (.run (r := lp (ask (inOrder R a ns))) 40 (core_ok C L).hide ?_)
  kvc
  khole
  refine .loop fun τ g s hg => ?_
  have C' := C.mono s
  have loop : ∀ (ns : List Int) (a : Int), (∀ n ∈ a :: ns, fits n) → ZP P Q τ g [N nm a, listV (ns.map (N nm))] (ask (inOrder R a ns)) := by
    intro ns
    induction ns with
    | nil =>
      intro a hf
      refine .call 40 nor hg (core_ok C' L).hide (by simp [listV_ne, N]) ?_
      kvc
    | cons b ns ih =>
      intro a hf
      have ha : fits a := hf a (by simp)
      have hb : fits b := hf b (by simp)
      have ih := ih b (fun n hn => hf n (by simp [List.mem_cons.1 hn]))
      have h1 := hR a b ha hb
      refine .call 40 nor hg ((core_ok C' L).hide.loc (x := S.cmp) (g := .clo (.prim p 2)) (by krfl) nofun (one_ok (.prim ⟨rfl, by decide⟩ h1)) |>.loc (x := S.loop) (g := g) (by krfl) hg.ne (one_ok ih)) (by simp [listV_ne, N]) ?_
      rw [inOrder]
      cases R a b
      · rw [Bool.false_and]; kvc
      · rw [Bool.true_and]; kvc
  refine .one (.run (r := nor) 20 ((core_ok C' L).hide.loc (x := S.loop) (g := g) (by krfl) hg.ne (one_ok (loop ns a hf))) ?_)
  kvc

/-! ### Arithmetic -/

/-- Specification: the numbers are combined from the left, and no result leaves the range of fixnums. -/
def fold (op : Int → Int → Int) : Int → List Int → Option Int
  | a, [] => some a
  | a, b :: bs => if fits b ∧ fits (op a b) then fold op (op a b) bs else none

/-- The variables of the closures of `+`, `-`, `*` and `/`. -/
abbrev numEnv (g1 g2 : RV) : List (Sym × RV) := [(S.«divide-0-error», g2), (S.«non-number-error», g1)]

variable {h : RV}

theorem z_add2 (C : Ctx Q σ) (L : Laws P nm) (hh : IsClo σ (numEnv g1 g2) (valCls prelude_50 0) h) {a b : Int} (ha : fits a) (hb : fits b) (hab : fits (a + b)) : ZP P Q σ h [N nm a, N nm b] (N nm (a + b)) := by
  refine .call 40 nor hh ((core_ok C L).c C S.«$fx2+» 2 rfl rfl (by decide) ⟨rfl, by decide⟩ (L.add a b ha hb hab)).hide (by simp [N]) ?_
  kvc

theorem z_addN (C : Ctx Q σ) (L : Laws P nm) (hh : IsClo σ (numEnv g1 g2) (valCls prelude_50 0) h) {a b c r : Int} {ns : List Int} (ha : fits a) (hr : fold (· + ·) a (b :: c :: ns) = some r) :
    ZP P Q σ h ((a :: b :: c :: ns).map (N nm)) (N nm r) := by
  rw [fold] at hr
  split at hr
  case isFalse => cases hr
  rename_i hb
  obtain ⟨hb, hab⟩ := hb
  refine .clo (f := ⟨[S.x, S.y], some S.rest⟩) (body := body (valCls prelude_50 0) 3) hh ?_ (params_ne (by simp [N])) ?_
  · simp [valCls, inner, prelude_50, lamCls, select, acceptsN, body]
  have hp : params ⟨[S.x, S.y], some S.rest⟩ ((a :: b :: c :: ns).map (N nm)) = [N nm a, N nm b, listV ((c :: ns).map (N nm))] := rfl
  rw [hp]
  generalize c :: ns = ns at hr ⊢
  refine .one (.run (r := lp (N nm r)) 40 (core_ok C L).hide ?_)
  kvc
  khole
  refine .loop fun τ g s hg => ?_
  have C' := C.mono s
  have loop : ∀ (ns : List Int) (a : Int), fits a → fold (· + ·) a ns = some r → ZP P Q τ g [N nm a, listV (ns.map (N nm))] (N nm r) := by
    intro ns
    induction ns with
    | nil =>
      intro a ha hr
      cases hr
      refine .call 40 nor hg (core_ok C' L).hide (by simp [listV_ne, N]) ?_
      kvc
    | cons b ns ih =>
      intro a ha hr
      rw [fold] at hr
      split at hr
      case isFalse => cases hr
      rename_i hb
      obtain ⟨hb, hab⟩ := hb
      refine .call 40 nor hg (((core_ok C' L).c C' S.«$fx2+» 2 rfl rfl (by decide) ⟨rfl, by decide⟩ (L.add a b ha hb hab)).hide.loc (x := S.loop) (g := g) (by krfl) hg.ne (one_ok (ih _ hab hr))) (by simp [listV_ne, N]) ?_
      kvc
  refine .one (.run (r := nor) 20 (((core_ok C' L).c C' S.«$fx2+» 2 rfl rfl (by decide) ⟨rfl, by decide⟩ (L.add a b ha hb hab)).hide.loc (x := S.loop) (g := g) (by krfl) hg.ne (one_ok (loop ns _ hab hr))) ?_)
  kvc

theorem z_sub2 (C : Ctx Q σ) (L : Laws P nm) (hh : IsClo σ (numEnv g1 g2) (valCls prelude_50 1) h) {a b : Int} (ha : fits a) (hb : fits b) (hab : fits (a - b)) : ZP P Q σ h [N nm a, N nm b] (N nm (a - b)) := by
  refine .call 40 nor hh ((core_ok C L).c C S.«$fx2-» 2 rfl rfl (by decide) ⟨rfl, by decide⟩ (L.sub a b ha hb hab)).hide (by simp [N]) ?_
  kvc

theorem z_subN (C : Ctx Q σ) (L : Laws P nm) (hh : IsClo σ (numEnv g1 g2) (valCls prelude_50 1) h) {a b c r : Int} {ns : List Int} (ha : fits a) (hr : fold (· - ·) a (b :: c :: ns) = some r) :
    ZP P Q σ h ((a :: b :: c :: ns).map (N nm)) (N nm r) := by
  rw [fold] at hr
  split at hr
  case isFalse => cases hr
  rename_i hb
  obtain ⟨hb, hab⟩ := hb
  refine .clo (f := ⟨[S.x, S.y], some S.rest⟩) (body := body (valCls prelude_50 1) 3) hh ?_ (params_ne (by simp [N])) ?_
  · simp [valCls, inner, prelude_50, lamCls, select, acceptsN, body]
  have hp : params ⟨[S.x, S.y], some S.rest⟩ ((a :: b :: c :: ns).map (N nm)) = [N nm a, N nm b, listV ((c :: ns).map (N nm))] := rfl
  rw [hp]
  generalize c :: ns = ns at hr ⊢
  refine .one (.run (r := lp (N nm r)) 40 (core_ok C L).hide ?_)
  kvc
  khole
  refine .loop fun τ g s hg => ?_
  have C' := C.mono s
  have loop : ∀ (ns : List Int) (a : Int), fits a → fold (· - ·) a ns = some r → ZP P Q τ g [N nm a, listV (ns.map (N nm))] (N nm r) := by
    intro ns
    induction ns with
    | nil =>
      intro a ha hr
      cases hr
      refine .call 40 nor hg (core_ok C' L).hide (by simp [listV_ne, N]) ?_
      kvc
    | cons b ns ih =>
      intro a ha hr
      rw [fold] at hr
      split at hr
      case isFalse => cases hr
      rename_i hb
      obtain ⟨hb, hab⟩ := hb
      refine .call 40 nor hg (((core_ok C' L).c C' S.«$fx2-» 2 rfl rfl (by decide) ⟨rfl, by decide⟩ (L.sub a b ha hb hab)).hide.loc (x := S.loop) (g := g) (by krfl) hg.ne (one_ok (ih _ hab hr))) (by simp [listV_ne, N]) ?_
      kvc
  refine .one (.run (r := nor) 20 (((core_ok C' L).c C' S.«$fx2-» 2 rfl rfl (by decide) ⟨rfl, by decide⟩ (L.sub a b ha hb hab)).hide.loc (x := S.loop) (g := g) (by krfl) hg.ne (one_ok (loop ns _ hab hr))) ?_)
  kvc

theorem z_mul2 (C : Ctx Q σ) (L : Laws P nm) (hh : IsClo σ (numEnv g1 g2) (valCls prelude_50 2) h) {a b : Int} (ha : fits a) (hb : fits b) (hab : fits (a * b)) : ZP P Q σ h [N nm a, N nm b] (N nm (a * b)) := by
  refine .call 40 nor hh ((core_ok C L).c C S.«$fx2*» 2 rfl rfl (by decide) ⟨rfl, by decide⟩ (L.mul a b ha hb hab)).hide (by simp [N]) ?_
  kvc

theorem z_mulN (C : Ctx Q σ) (L : Laws P nm) (hh : IsClo σ (numEnv g1 g2) (valCls prelude_50 2) h) {a b c r : Int} {ns : List Int} (ha : fits a) (hr : fold (· * ·) a (b :: c :: ns) = some r) :
    ZP P Q σ h ((a :: b :: c :: ns).map (N nm)) (N nm r) := by
  rw [fold] at hr
  split at hr
  case isFalse => cases hr
  rename_i hb
  obtain ⟨hb, hab⟩ := hb
  refine .clo (f := ⟨[S.x, S.y], some S.rest⟩) (body := body (valCls prelude_50 2) 3) hh ?_ (params_ne (by simp [N])) ?_
  · simp [valCls, inner, prelude_50, lamCls, select, acceptsN, body]
  have hp : params ⟨[S.x, S.y], some S.rest⟩ ((a :: b :: c :: ns).map (N nm)) = [N nm a, N nm b, listV ((c :: ns).map (N nm))] := rfl
  rw [hp]
  generalize c :: ns = ns at hr ⊢
  refine .one (.run (r := lp (N nm r)) 40 (core_ok C L).hide ?_)
  kvc
  khole
  refine .loop fun τ g s hg => ?_
  have C' := C.mono s
  have loop : ∀ (ns : List Int) (a : Int), fits a → fold (· * ·) a ns = some r → ZP P Q τ g [N nm a, listV (ns.map (N nm))] (N nm r) := by
    intro ns
    induction ns with
    | nil =>
      intro a ha hr
      cases hr
      refine .call 40 nor hg (core_ok C' L).hide (by simp [listV_ne, N]) ?_
      kvc
    | cons b ns ih =>
      intro a ha hr
      rw [fold] at hr
      split at hr
      case isFalse => cases hr
      rename_i hb
      obtain ⟨hb, hab⟩ := hb
      refine .call 40 nor hg (((core_ok C' L).c C' S.«$fx2*» 2 rfl rfl (by decide) ⟨rfl, by decide⟩ (L.mul a b ha hb hab)).hide.loc (x := S.loop) (g := g) (by krfl) hg.ne (one_ok (ih _ hab hr))) (by simp [listV_ne, N]) ?_
      kvc
  refine .one (.run (r := nor) 20 (((core_ok C' L).c C' S.«$fx2*» 2 rfl rfl (by decide) ⟨rfl, by decide⟩ (L.mul a b ha hb hab)).hide.loc (x := S.loop) (g := g) (by krfl) hg.ne (one_ok (loop ns _ hab hr))) ?_)
  kvc

theorem z_add01 (C : Ctx Q σ) (L : Laws P nm) (hh : IsClo σ (numEnv g1 g2) (valCls prelude_50 0) h) : ZP P Q σ h [] (N nm 0) ∧ ∀ a, fits a → ZP P Q σ h [N nm a] (N nm a) := by
  refine ⟨.call 40 nor hh (core_ok C L).hide (by simp) ?_, fun a ha => .call 40 nor hh (core_ok C L).hide (by simp [N]) ?_⟩
  · rw [N, L.nm0]; kvc
  · kvc

theorem z_mul01 (C : Ctx Q σ) (L : Laws P nm) (hh : IsClo σ (numEnv g1 g2) (valCls prelude_50 2) h) : ZP P Q σ h [] (N nm 1) ∧ ∀ a, fits a → ZP P Q σ h [N nm a] (N nm a) := by
  refine ⟨.call 40 nor hh (core_ok C L).hide (by simp) ?_, fun a ha => .call 40 nor hh (core_ok C L).hide (by simp [N]) ?_⟩
  · rw [N, L.nm1]; kvc
  · kvc

theorem fits0 : fits 0 := by decide
theorem fits1 : fits 1 := by decide

theorem N0 (L : Laws P nm) : N nm 0 = .lit (.const 19) := by rw [N, L.nm0]
theorem N1 (L : Laws P nm) : N nm 1 = .lit (.const 21) := by rw [N, L.nm1]
theorem N2 (L : Laws P nm) : N nm 2 = .lit (.const 33) := by rw [N, L.nm2]

theorem z_sub1 (C : Ctx Q σ) (L : Laws P nm) (hh : IsClo σ (numEnv g1 g2) (valCls prelude_50 1) h) {a : Int} (ha : fits a) (hn : fits (-a)) : ZP P Q σ h [N nm a] (N nm (-a)) := by
  have := L.sub 0 a fits0 ha (by simpa using hn)
  rw [N0 L, Int.zero_sub] at this
  refine .call 40 nor hh ((core_ok C L).c C S.«$fx2-» 2 rfl rfl (by decide) ⟨rfl, by decide⟩ this).hide (by simp [N]) ?_
  kvc

/-- `add1` (prelude.min:699-703) -/
theorem z_succ (C : Ctx Q σ) (L : Laws P nm) {a : Int} (ha : fits a) (hn : fits (a + 1)) : ZP P Q σ (fn prelude_51) [N nm a] (N nm (a + 1)) := by
  have := L.add a 1 ha fits1 hn
  rw [N1 L] at this
  refine .call 40 nor isClo_top ((core_ok C L).c C S.«$fx2+» 2 rfl rfl (by decide) ⟨rfl, by decide⟩ this).hide (by simp [N]) ?_
  kvc

/-- `sub1` (prelude.min:705-709) -/
theorem z_pred (C : Ctx Q σ) (L : Laws P nm) {a : Int} (ha : fits a) (hn : fits (a - 1)) : ZP P Q σ (fn prelude_52) [N nm a] (N nm (a - 1)) := by
  have := L.sub a 1 ha fits1 hn
  rw [N1 L] at this
  refine .call 40 nor isClo_top ((core_ok C L).c C S.«$fx2-» 2 rfl rfl (by decide) ⟨rfl, by decide⟩ this).hide (by simp [N]) ?_
  kvc

end Minim.Fix

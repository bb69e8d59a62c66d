import Verif.LibMore

set_option autoImplicit false

/-!
# Procedures of boot.min on lists (C108)
-/

namespace Minim.Fix

open Minim.Sx Minim.Core Minim.Jit Minim.Lib

variable {P : Prims} {Q : Sym → Prop} {nm : Int → Nat} {σ : RS} {Γ : List (Sym × RV)}

/-- `car` and `cdr` of pairs as well. -/
def core2 (nm : Int → Nat) : Fns := ((core nm).add S.car (fun vs => match vs with | [.cons a _] => some (a, []) | _ => none)).add S.cdr (fun vs => match vs with | [.cons _ d] => some (d, []) | _ => none)

theorem core2_ok (C : Ctx Q σ) (L : Laws P nm) : KOk P Q σ [] (core2 nm) := by
  obtain ⟨g, h1, h2⟩ := z_car C L
  obtain ⟨g', h1', h2'⟩ := z_cdr C L
  have hc := C.plain 7 prelude_8 S.car rfl rfl (by decide)
  have hd := C.plain 8 prelude_9 S.cdr rfl rfl (by decide)
  have e := h1.2.symm.trans hc.2
  have e' := h1'.2.symm.trans hd.2
  cases e
  cases e'
  refine ((core_ok C L).glob rfl hc nofun ?_).glob rfl hd nofun ?_
  · intro vs v ps hv _
    split at hv
    · cases hv; exact h2 _ _ rfl
    · cases hv
  · intro vs v ps hv _
    split at hv
    · cases hv; exact h2' _ _ rfl
    · cases hv

/-- `cons*` (list.min:18-21) -/
theorem d_consStar (C : Ctx Q σ) (L : Laws P nm) (ws : List RV) (t : RV) (hw : ∀ w ∈ ws, w ≠ .unbound) (ht : t ≠ .unbound) : Does P Q σ S.«cons*» (ws ++ [t]) (ws.foldr .cons t) := by
  refine .plain C 153 (e := boot_1) rfl rfl (by decide) ?_
  obtain ⟨x, xs, hx⟩ : ∃ x xs, ws ++ [t] = x :: xs := by cases ws <;> exact ⟨_, _, rfl⟩
  have hu : ∀ w ∈ ws ++ [t], w ≠ .unbound := by
    intro w h
    rcases List.mem_append.1 h with h | h
    · exact hw w h
    · rw [List.mem_singleton.1 h]; exact ht
  have hx1 : x ≠ .unbound := hu x (by simp [hx])
  rw [hx]
  rw [hx] at hu
  refine .clo (Γ := []) (f := ⟨[S.x], some S.xs⟩) (body := body (clsOf boot_1) 1) isClo_top ?_ (params_ne hu) ?_
  · simp [clsOf, boot_1, lamCls, select, acceptsN, body]
  have hp : params ⟨[S.x], some S.xs⟩ (x :: xs) = [x, listV xs] := rfl
  rw [hp]
  refine ZB.one (Hole.get ?_)
  khole
  refine .loop fun τ g s hg => ?_
  have C' := C.mono s
  have loop : ∀ (ws xs : List RV) (x : RV), (∀ w ∈ x :: xs, w ≠ .unbound) → ws ++ [t] = x :: xs → ZP P Q τ g [x, listV xs] (ws.foldr .cons t) := by
    intro ws
    induction ws with
    | nil =>
      intro xs x hu hx
      cases hx
      refine .call 40 nor hg (core2_ok C' L).hide (by simp [listV_ne, hu]) ?_
      kvc
    | cons w ws ih =>
      intro xs x hu hx
      rw [List.cons_append] at hx
      obtain ⟨rfl, rfl⟩ := List.cons.inj hx
      obtain ⟨y, ys, hy⟩ : ∃ x xs, ws ++ [t] = x :: xs := by cases ws <;> exact ⟨_, _, rfl⟩
      have ih := ih ys y (fun w h => hu w (by rw [hy]; exact .tail _ h)) hy
      rw [hy]
      refine .call 40 nor hg ((core2_ok C' L).hide.loc (x := S.loop) (g := g) (by krfl) hg.ne (one_ok ih)) (by simp [listV_ne, hu]) ?_
      kvc
  refine .one (.run (r := nor) 20 ((core_ok C' L).hide.loc (x := S.loop) (g := g) (by krfl) hg.ne (one_ok (loop ws xs x hu hx))) ?_)
  kvc

/-- `first` (list.min:25-28) -/
theorem d_first (C : Ctx Q σ) (L : Laws P nm) (a : RV) (ws : List RV) : Does P Q σ S.first [listV (a :: ws)] a := by
  refine .plain C 154 (e := boot_2) rfl rfl (by decide) (.call 40 nor isClo_top (core2_ok C L).hide (by simp [listV]) ?_)
  kvc

/-- `second` (list.min:44, 30-42) -/
theorem d_second (C : Ctx Q σ) (L : Laws P nm) (ws : List RV) (v : RV) (hv : ws[1]? = some v) : Does P Q σ S.second [listV ws] v := by
  refine .plain C 155 (e := boot_3) rfl rfl (by decide) (.call 40 (lp v) isClo_top (core2_ok C L).hide (by simp [listV_ne]) ?_)
  kvc
  khole
  refine .loop fun τ g s hg => ?_
  have C' := C.mono s
  have loop : ∀ (us : List RV) (i : Nat), i < 10 → us[i]? = some v → ZP P Q τ g [listV us, N nm ((i : Int) + 1)] v := by
    intro us
    induction us with
    | nil => intro i _ h; cases h
    | cons u us ih =>
      intro i hi h
      have fi : fits ((i : Int) + 1) := by unfold fits; omega
      have he := d_eq C' L fi fits1
      rw [N1 L] at he
      match i with
      | 0 =>
        cases h
        rw [decide_eq_true (by omega)] at he
        refine .call 40 nor hg ((core2_ok C' L).does he).hide (by simp [listV_ne, N]) ?_
        kvc
      | i + 1 =>
        rw [decide_eq_false (by omega)] at he
        have e : (((i + 1 : Nat) : Int) + 1) - 1 = (i : Int) + 1 := by omega
        have hs := d_sub C' L fi fits1 (by rw [e]; unfold fits; omega)
        rw [e, N1 L] at hs
        refine .call 40 nor hg (((core2_ok C' L).does he).does hs |>.hide.loc (x := S.loop) (g := g) (by krfl) hg.ne (one_ok (ih i (by omega) h))) (by simp [listV_ne, N]) ?_
        kvc
  have := loop ws 1 (by omega) hv
  rw [show ((1 : Nat) : Int) + 1 = 2 from rfl, N, L.nm2] at this
  refine .one (.run (r := nor) 20 ((core2_ok C' L).hide.loc (x := S.loop) (g := g) (by krfl) hg.ne (one_ok this)) ?_)
  kvc

/-- `third` (list.min:45, 30-42) -/
theorem d_third (C : Ctx Q σ) (L : Laws P nm) (ws : List RV) (v : RV) (hv : ws[2]? = some v) : Does P Q σ S.third [listV ws] v := by
  refine .plain C 156 (e := boot_4) rfl rfl (by decide) (.call 40 (lp v) isClo_top (core2_ok C L).hide (by simp [listV_ne]) ?_)
  kvc
  khole
  refine .loop fun τ g s hg => ?_
  have C' := C.mono s
  have loop : ∀ (us : List RV) (i : Nat), i < 10 → us[i]? = some v → ZP P Q τ g [listV us, N nm ((i : Int) + 1)] v := by
    intro us
    induction us with
    | nil => intro i _ h; cases h
    | cons u us ih =>
      intro i hi h
      have fi : fits ((i : Int) + 1) := by unfold fits; omega
      have he := d_eq C' L fi fits1
      rw [N1 L] at he
      match i with
      | 0 =>
        cases h
        rw [decide_eq_true (by omega)] at he
        refine .call 40 nor hg ((core2_ok C' L).does he).hide (by simp [listV_ne, N]) ?_
        kvc
      | i + 1 =>
        rw [decide_eq_false (by omega)] at he
        have e : (((i + 1 : Nat) : Int) + 1) - 1 = (i : Int) + 1 := by omega
        have hs := d_sub C' L fi fits1 (by rw [e]; unfold fits; omega)
        rw [e, N1 L] at hs
        refine .call 40 nor hg (((core2_ok C' L).does he).does hs |>.hide.loc (x := S.loop) (g := g) (by krfl) hg.ne (one_ok (ih i (by omega) h))) (by simp [listV_ne, N]) ?_
        kvc
  have := loop ws 2 (by omega) hv
  rw [show ((2 : Nat) : Int) + 1 = 3 from rfl, N, L.nm3] at this
  refine .one (.run (r := nor) 20 ((core2_ok C' L).hide.loc (x := S.loop) (g := g) (by krfl) hg.ne (one_ok this)) ?_)
  kvc

/-- `fourth` (list.min:46, 30-42) -/
theorem d_fourth (C : Ctx Q σ) (L : Laws P nm) (ws : List RV) (v : RV) (hv : ws[3]? = some v) : Does P Q σ S.fourth [listV ws] v := by
  refine .plain C 157 (e := boot_5) rfl rfl (by decide) (.call 40 (lp v) isClo_top (core2_ok C L).hide (by simp [listV_ne]) ?_)
  kvc
  khole
  refine .loop fun τ g s hg => ?_
  have C' := C.mono s
  have loop : ∀ (us : List RV) (i : Nat), i < 10 → us[i]? = some v → ZP P Q τ g [listV us, N nm ((i : Int) + 1)] v := by
    intro us
    induction us with
    | nil => intro i _ h; cases h
    | cons u us ih =>
      intro i hi h
      have fi : fits ((i : Int) + 1) := by unfold fits; omega
      have he := d_eq C' L fi fits1
      rw [N1 L] at he
      match i with
      | 0 =>
        cases h
        rw [decide_eq_true (by omega)] at he
        refine .call 40 nor hg ((core2_ok C' L).does he).hide (by simp [listV_ne, N]) ?_
        kvc
      | i + 1 =>
        rw [decide_eq_false (by omega)] at he
        have e : (((i + 1 : Nat) : Int) + 1) - 1 = (i : Int) + 1 := by omega
        have hs := d_sub C' L fi fits1 (by rw [e]; unfold fits; omega)
        rw [e, N1 L] at hs
        refine .call 40 nor hg (((core2_ok C' L).does he).does hs |>.hide.loc (x := S.loop) (g := g) (by krfl) hg.ne (one_ok (ih i (by omega) h))) (by simp [listV_ne, N]) ?_
        kvc
  have := loop ws 3 (by omega) hv
  rw [show ((3 : Nat) : Int) + 1 = 4 from rfl, N, L.nm4] at this
  refine .one (.run (r := nor) 20 ((core2_ok C' L).hide.loc (x := S.loop) (g := g) (by krfl) hg.ne (one_ok this)) ?_)
  kvc

/-- `fifth` (list.min:47, 30-42) -/
theorem d_fifth (C : Ctx Q σ) (L : Laws P nm) (ws : List RV) (v : RV) (hv : ws[4]? = some v) : Does P Q σ S.fifth [listV ws] v := by
  refine .plain C 158 (e := boot_6) rfl rfl (by decide) (.call 40 (lp v) isClo_top (core2_ok C L).hide (by simp [listV_ne]) ?_)
  kvc
  khole
  refine .loop fun τ g s hg => ?_
  have C' := C.mono s
  have loop : ∀ (us : List RV) (i : Nat), i < 10 → us[i]? = some v → ZP P Q τ g [listV us, N nm ((i : Int) + 1)] v := by
    intro us
    induction us with
    | nil => intro i _ h; cases h
    | cons u us ih =>
      intro i hi h
      have fi : fits ((i : Int) + 1) := by unfold fits; omega
      have he := d_eq C' L fi fits1
      rw [N1 L] at he
      match i with
      | 0 =>
        cases h
        rw [decide_eq_true (by omega)] at he
        refine .call 40 nor hg ((core2_ok C' L).does he).hide (by simp [listV_ne, N]) ?_
        kvc
      | i + 1 =>
        rw [decide_eq_false (by omega)] at he
        have e : (((i + 1 : Nat) : Int) + 1) - 1 = (i : Int) + 1 := by omega
        have hs := d_sub C' L fi fits1 (by rw [e]; unfold fits; omega)
        rw [e, N1 L] at hs
        refine .call 40 nor hg (((core2_ok C' L).does he).does hs |>.hide.loc (x := S.loop) (g := g) (by krfl) hg.ne (one_ok (ih i (by omega) h))) (by simp [listV_ne, N]) ?_
        kvc
  have := loop ws 4 (by omega) hv
  rw [show ((4 : Nat) : Int) + 1 = 5 from rfl, N, L.nm5] at this
  refine .one (.run (r := nor) 20 ((core2_ok C' L).hide.loc (x := S.loop) (g := g) (by krfl) hg.ne (one_ok this)) ?_)
  kvc

/-- `sixth` (list.min:48, 30-42) -/
theorem d_sixth (C : Ctx Q σ) (L : Laws P nm) (ws : List RV) (v : RV) (hv : ws[5]? = some v) : Does P Q σ S.sixth [listV ws] v := by
  refine .plain C 159 (e := boot_7) rfl rfl (by decide) (.call 40 (lp v) isClo_top (core2_ok C L).hide (by simp [listV_ne]) ?_)
  kvc
  khole
  refine .loop fun τ g s hg => ?_
  have C' := C.mono s
  have loop : ∀ (us : List RV) (i : Nat), i < 10 → us[i]? = some v → ZP P Q τ g [listV us, N nm ((i : Int) + 1)] v := by
    intro us
    induction us with
    | nil => intro i _ h; cases h
    | cons u us ih =>
      intro i hi h
      have fi : fits ((i : Int) + 1) := by unfold fits; omega
      have he := d_eq C' L fi fits1
      rw [N1 L] at he
      match i with
      | 0 =>
        cases h
        rw [decide_eq_true (by omega)] at he
        refine .call 40 nor hg ((core2_ok C' L).does he).hide (by simp [listV_ne, N]) ?_
        kvc
      | i + 1 =>
        rw [decide_eq_false (by omega)] at he
        have e : (((i + 1 : Nat) : Int) + 1) - 1 = (i : Int) + 1 := by omega
        have hs := d_sub C' L fi fits1 (by rw [e]; unfold fits; omega)
        rw [e, N1 L] at hs
        refine .call 40 nor hg (((core2_ok C' L).does he).does hs |>.hide.loc (x := S.loop) (g := g) (by krfl) hg.ne (one_ok (ih i (by omega) h))) (by simp [listV_ne, N]) ?_
        kvc
  have := loop ws 5 (by omega) hv
  rw [show ((5 : Nat) : Int) + 1 = 6 from rfl, N, L.nm6] at this
  refine .one (.run (r := nor) 20 ((core2_ok C' L).hide.loc (x := S.loop) (g := g) (by krfl) hg.ne (one_ok this)) ?_)
  kvc

/-- `seventh` (list.min:49, 30-42) -/
theorem d_seventh (C : Ctx Q σ) (L : Laws P nm) (ws : List RV) (v : RV) (hv : ws[6]? = some v) : Does P Q σ S.seventh [listV ws] v := by
  refine .plain C 160 (e := boot_8) rfl rfl (by decide) (.call 40 (lp v) isClo_top (core2_ok C L).hide (by simp [listV_ne]) ?_)
  kvc
  khole
  refine .loop fun τ g s hg => ?_
  have C' := C.mono s
  have loop : ∀ (us : List RV) (i : Nat), i < 10 → us[i]? = some v → ZP P Q τ g [listV us, N nm ((i : Int) + 1)] v := by
    intro us
    induction us with
    | nil => intro i _ h; cases h
    | cons u us ih =>
      intro i hi h
      have fi : fits ((i : Int) + 1) := by unfold fits; omega
      have he := d_eq C' L fi fits1
      rw [N1 L] at he
      match i with
      | 0 =>
        cases h
        rw [decide_eq_true (by omega)] at he
        refine .call 40 nor hg ((core2_ok C' L).does he).hide (by simp [listV_ne, N]) ?_
        kvc
      | i + 1 =>
        rw [decide_eq_false (by omega)] at he
        have e : (((i + 1 : Nat) : Int) + 1) - 1 = (i : Int) + 1 := by omega
        have hs := d_sub C' L fi fits1 (by rw [e]; unfold fits; omega)
        rw [e, N1 L] at hs
        refine .call 40 nor hg (((core2_ok C' L).does he).does hs |>.hide.loc (x := S.loop) (g := g) (by krfl) hg.ne (one_ok (ih i (by omega) h))) (by simp [listV_ne, N]) ?_
        kvc
  have := loop ws 6 (by omega) hv
  rw [show ((6 : Nat) : Int) + 1 = 7 from rfl, N, L.nm7] at this
  refine .one (.run (r := nor) 20 ((core2_ok C' L).hide.loc (x := S.loop) (g := g) (by krfl) hg.ne (one_ok this)) ?_)
  kvc

/-- `eighth` (list.min:50, 30-42) -/
theorem d_eighth (C : Ctx Q σ) (L : Laws P nm) (ws : List RV) (v : RV) (hv : ws[7]? = some v) : Does P Q σ S.eighth [listV ws] v := by
  refine .plain C 161 (e := boot_9) rfl rfl (by decide) (.call 40 (lp v) isClo_top (core2_ok C L).hide (by simp [listV_ne]) ?_)
  kvc
  khole
  refine .loop fun τ g s hg => ?_
  have C' := C.mono s
  have loop : ∀ (us : List RV) (i : Nat), i < 10 → us[i]? = some v → ZP P Q τ g [listV us, N nm ((i : Int) + 1)] v := by
    intro us
    induction us with
    | nil => intro i _ h; cases h
    | cons u us ih =>
      intro i hi h
      have fi : fits ((i : Int) + 1) := by unfold fits; omega
      have he := d_eq C' L fi fits1
      rw [N1 L] at he
      match i with
      | 0 =>
        cases h
        rw [decide_eq_true (by omega)] at he
        refine .call 40 nor hg ((core2_ok C' L).does he).hide (by simp [listV_ne, N]) ?_
        kvc
      | i + 1 =>
        rw [decide_eq_false (by omega)] at he
        have e : (((i + 1 : Nat) : Int) + 1) - 1 = (i : Int) + 1 := by omega
        have hs := d_sub C' L fi fits1 (by rw [e]; unfold fits; omega)
        rw [e, N1 L] at hs
        refine .call 40 nor hg (((core2_ok C' L).does he).does hs |>.hide.loc (x := S.loop) (g := g) (by krfl) hg.ne (one_ok (ih i (by omega) h))) (by simp [listV_ne, N]) ?_
        kvc
  have := loop ws 7 (by omega) hv
  rw [show ((7 : Nat) : Int) + 1 = 8 from rfl, N, L.nm8] at this
  refine .one (.run (r := nor) 20 ((core2_ok C' L).hide.loc (x := S.loop) (g := g) (by krfl) hg.ne (one_ok this)) ?_)
  kvc

/-- `ninth` (list.min:51, 30-42) -/
theorem d_ninth (C : Ctx Q σ) (L : Laws P nm) (ws : List RV) (v : RV) (hv : ws[8]? = some v) : Does P Q σ S.ninth [listV ws] v := by
  refine .plain C 162 (e := boot_10) rfl rfl (by decide) (.call 40 (lp v) isClo_top (core2_ok C L).hide (by simp [listV_ne]) ?_)
  kvc
  khole
  refine .loop fun τ g s hg => ?_
  have C' := C.mono s
  have loop : ∀ (us : List RV) (i : Nat), i < 10 → us[i]? = some v → ZP P Q τ g [listV us, N nm ((i : Int) + 1)] v := by
    intro us
    induction us with
    | nil => intro i _ h; cases h
    | cons u us ih =>
      intro i hi h
      have fi : fits ((i : Int) + 1) := by unfold fits; omega
      have he := d_eq C' L fi fits1
      rw [N1 L] at he
      match i with
      | 0 =>
        cases h
        rw [decide_eq_true (by omega)] at he
        refine .call 40 nor hg ((core2_ok C' L).does he).hide (by simp [listV_ne, N]) ?_
        kvc
      | i + 1 =>
        rw [decide_eq_false (by omega)] at he
        have e : (((i + 1 : Nat) : Int) + 1) - 1 = (i : Int) + 1 := by omega
        have hs := d_sub C' L fi fits1 (by rw [e]; unfold fits; omega)
        rw [e, N1 L] at hs
        refine .call 40 nor hg (((core2_ok C' L).does he).does hs |>.hide.loc (x := S.loop) (g := g) (by krfl) hg.ne (one_ok (ih i (by omega) h))) (by simp [listV_ne, N]) ?_
        kvc
  have := loop ws 8 (by omega) hv
  rw [show ((8 : Nat) : Int) + 1 = 9 from rfl, N, L.nm9] at this
  refine .one (.run (r := nor) 20 ((core2_ok C' L).hide.loc (x := S.loop) (g := g) (by krfl) hg.ne (one_ok this)) ?_)
  kvc

/-- `tenth` (list.min:52, 30-42) -/
theorem d_tenth (C : Ctx Q σ) (L : Laws P nm) (ws : List RV) (v : RV) (hv : ws[9]? = some v) : Does P Q σ S.tenth [listV ws] v := by
  refine .plain C 163 (e := boot_11) rfl rfl (by decide) (.call 40 (lp v) isClo_top (core2_ok C L).hide (by simp [listV_ne]) ?_)
  kvc
  khole
  refine .loop fun τ g s hg => ?_
  have C' := C.mono s
  have loop : ∀ (us : List RV) (i : Nat), i < 10 → us[i]? = some v → ZP P Q τ g [listV us, N nm ((i : Int) + 1)] v := by
    intro us
    induction us with
    | nil => intro i _ h; cases h
    | cons u us ih =>
      intro i hi h
      have fi : fits ((i : Int) + 1) := by unfold fits; omega
      have he := d_eq C' L fi fits1
      rw [N1 L] at he
      match i with
      | 0 =>
        cases h
        rw [decide_eq_true (by omega)] at he
        refine .call 40 nor hg ((core2_ok C' L).does he).hide (by simp [listV_ne, N]) ?_
        kvc
      | i + 1 =>
        rw [decide_eq_false (by omega)] at he
        have e : (((i + 1 : Nat) : Int) + 1) - 1 = (i : Int) + 1 := by omega
        have hs := d_sub C' L fi fits1 (by rw [e]; unfold fits; omega)
        rw [e, N1 L] at hs
        refine .call 40 nor hg (((core2_ok C' L).does he).does hs |>.hide.loc (x := S.loop) (g := g) (by krfl) hg.ne (one_ok (ih i (by omega) h))) (by simp [listV_ne, N]) ?_
        kvc
  have := loop ws 9 (by omega) hv
  rw [show ((9 : Nat) : Int) + 1 = 10 from rfl, N, L.nm10] at this
  refine .one (.run (r := nor) 20 ((core2_ok C' L).hide.loc (x := S.loop) (g := g) (by krfl) hg.ne (one_ok this)) ?_)
  kvc

/-- `list-ref` (list.min:54-60) -/
theorem d_listRef (C : Ctx Q σ) (L : Laws P nm) (ws : List RV) (k : Nat) (v : RV) (hk : fits k) (hv : ws[k]? = some v) : Does P Q σ S.«list-ref» [listV ws, N nm k] v := by
  have h0 := d_nonneg C L hk
  rw [decide_eq_true (by omega)] at h0
  refine .plain C 164 (e := boot_12) rfl rfl (by decide) (.call 40 (lp v) isClo_top ((core2_ok C L).does h0).hide (by simp [listV_ne, N]) ?_)
  kvc
  khole
  refine .loop fun τ g s hg => ?_
  have C' := C.mono s
  have loop : ∀ (us : List RV) (i j : Nat), i + j = k → us[j]? = some v → ZP P Q τ g [listV us, N nm i] v := by
    intro us
    induction us with
    | nil => intro i j _ h; cases h
    | cons u us ih =>
      intro i j hij h
      have fi : fits (i : Int) := by unfold fits at *; omega
      have he := d_eq C' L fi hk
      match j with
      | 0 =>
        cases h
        rw [decide_eq_true (by omega)] at he
        refine .call 40 nor hg ((core2_ok C' L).does he).hide (by simp [listV_ne, N]) ?_
        kvc
      | j + 1 =>
        rw [decide_eq_false (by omega)] at he
        have hs := d_add C' L fi fits1 (by unfold fits at *; omega)
        rw [N1 L] at hs
        have ih := ih (i + 1) j (by omega) h
        rw [show ((i + 1 : Nat) : Int) = (i : Int) + 1 from by omega] at ih
        refine .call 40 nor hg (((core2_ok C' L).does he).does hs |>.hide.loc (x := S.loop) (g := g) (by krfl) hg.ne (one_ok ih)) (by simp [listV_ne, N]) ?_
        kvc
  have := loop ws 0 k (by omega) hv
  rw [show ((0 : Nat) : Int) = 0 from rfl, N0 L] at this
  refine .one (.run (r := nor) 20 ((core2_ok C' L).hide.loc (x := S.loop) (g := g) (by krfl) hg.ne (one_ok this)) ?_)
  kvc

/-- `filter` (list.min:90-96) -/
theorem d_filter (C : Ctx Q σ) (L : Laws P nm) (c : RC) (p : RV → Bool) (ws : List RV) (hf : ∀ w ∈ ws, ∃ r, ZP P Q σ (.clo c) [w] r ∧ isFalse r = !p w) : Does P Q σ S.filter [.clo c, listV ws] (listV (ws.filter p)) := by
  refine .plain C 168 (e := boot_16) rfl rfl (by decide) (.call 40 (lp (listV (ws.filter p))) isClo_top (core2_ok C L).hide (by simp [listV_ne]) ?_)
  kvc
  khole
  refine .loop fun τ g s hg => ?_
  have C' := C.mono s
  have loop : ∀ (us acc : List RV), (∀ w ∈ us, ∃ r, ZP P Q σ (.clo c) [w] r ∧ isFalse r = !p w) → ZP P Q τ g [listV us, listV acc] (listV (acc.reverse ++ us.filter p)) := by
    intro us
    induction us with
    | nil =>
      intro acc _
      rw [List.filter_nil, List.append_nil]
      refine .call 40 nor hg ((core2_ok C' L).does (d_reverse C' L acc)).hide (by simp [listV_ne]) ?_
      kvc
    | cons u us ih =>
      intro acc hf
      obtain ⟨r, h1, h2⟩ := hf u (by simp)
      have hf' := fun w hw => hf w (List.mem_cons_of_mem u hw)
      cases hp : p u
      · rw [hp, Bool.not_false] at h2
        obtain rfl : r = .lit .fls := by
          unfold Jit.isFalse at h2
          split at h2
          · rfl
          · cases h2
        rw [List.filter_cons_of_neg (by simp [hp])]
        refine .call 40 nor hg ((core2_ok C' L).hide.loc (x := S.f) (g := .clo c) (by krfl) nofun (one_ok (h1.mono s)) |>.loc (x := S.loop) (g := g) (by krfl) hg.ne (one_ok (ih acc hf'))) (by simp [listV_ne]) ?_
        kvc
      · rw [hp, Bool.not_true] at h2
        rw [List.filter_cons_of_pos hp]
        have ih := ih (u :: acc) hf'
        rw [List.reverse_cons, List.append_assoc] at ih
        refine .call 40 nor hg ((core2_ok C' L).hide.loc (x := S.f) (g := .clo c) (by krfl) nofun (one_ok (h1.mono s)) |>.loc (x := S.loop) (g := g) (by krfl) hg.ne (one_ok ih)) (by simp [listV_ne]) ?_
        cases r with
        | lit l => cases l <;> first | cases h2; done | kvc
        | _ => kvc
  refine .one (.run (r := nor) 20 ((core2_ok C' L).hide.loc (x := S.loop) (g := g) (by krfl) hg.ne (one_ok (loop ws [] hf))) ?_)
  kvc

/-- Specification: `r` is what calls of `f` with the result so far and the elements, from the left, return. -/
inductive FoldL (P : Prims) (Q : Sym → Prop) (σ : RS) (f : RV) : RV → List RV → RV → Prop
  | nil {a : RV} : FoldL P Q σ f a [] a
  | cons {a b r w : RV} {ws : List RV} : ZP P Q σ f [a, w] b → b ≠ .unbound → FoldL P Q σ f b ws r → FoldL P Q σ f a (w :: ws) r

/-- Specification: the same from the right. -/
inductive FoldR (P : Prims) (Q : Sym → Prop) (σ : RS) (f : RV) (a : RV) : List RV → RV → Prop
  | nil : FoldR P Q σ f a [] a
  | cons {b r w : RV} {ws : List RV} : FoldR P Q σ f a ws b → ZP P Q σ f [b, w] r → FoldR P Q σ f a (w :: ws) r

/-- `foldl` (list.min:98-102) -/
theorem d_foldl (C : Ctx Q σ) (L : Laws P nm) (c : RC) (a r : RV) (ha : a ≠ .unbound) (ws : List RV) (hf : FoldL P Q σ (.clo c) a ws r) : Does P Q σ S.foldl [.clo c, a, listV ws] r := by
  refine .plain C 169 (e := boot_17) rfl rfl (by decide) (.call 40 (lp r) isClo_top (core2_ok C L).hide (by simp [listV_ne, ha]) ?_)
  kvc
  khole
  refine .loop fun τ g s hg => ?_
  have C' := C.mono s
  have loop : ∀ (us : List RV) (b : RV), b ≠ .unbound → FoldL P Q σ (.clo c) b us r → ZP P Q τ g [listV us, b] r := by
    intro us
    induction us with
    | nil =>
      intro b hb hf
      cases hf
      refine .call 40 nor hg (core2_ok C' L).hide (by simp [listV_ne, hb]) ?_
      kvc
    | cons u us ih =>
      intro b hb hf
      cases hf with
      | cons h1 h2 h3 =>
      refine .call 40 nor hg ((core2_ok C' L).hide.loc (x := S.f) (g := .clo c) (by krfl) nofun (one_ok (h1.mono s)) |>.loc (x := S.loop) (g := g) (by krfl) hg.ne (one_ok (ih _ h2 h3))) (by simp [listV_ne, hb]) ?_
      kvc
  refine .one (.run (r := nor) 20 ((core2_ok C' L).hide.loc (x := S.loop) (g := g) (by krfl) hg.ne (one_ok (loop ws a ha hf))) ?_)
  kvc

/-- `foldr` (list.min:104-108) -/
theorem d_foldr (C : Ctx Q σ) (L : Laws P nm) (c : RC) (a r : RV) (ha : a ≠ .unbound) (ws : List RV) (hf : FoldR P Q σ (.clo c) a ws r) : Does P Q σ S.foldr [.clo c, a, listV ws] r := by
  refine .plain C 170 (e := boot_18) rfl rfl (by decide) (.call 40 (lp r) isClo_top (core2_ok C L).hide (by simp [listV_ne, ha]) ?_)
  kvc
  khole
  refine .loop fun τ g s hg => ?_
  have C' := C.mono s
  have loop : ∀ (us : List RV) (r : RV), FoldR P Q σ (.clo c) a us r → ZP P Q τ g [listV us] r := by
    intro us
    induction us with
    | nil =>
      intro r hf
      cases hf
      refine .call 40 nor hg (core2_ok C' L).hide (by simp [listV_ne]) ?_
      kvc
    | cons u us ih =>
      intro r hf
      cases hf with
      | cons h1 h2 =>
      refine .call 40 nor hg ((core2_ok C' L).hide.loc (x := S.f) (g := .clo c) (by krfl) nofun (one_ok (h2.mono s)) |>.loc (x := S.loop) (g := g) (by krfl) hg.ne (one_ok (ih _ h1))) (by simp [listV_ne]) ?_
      kvc
  refine .one (.run (r := nor) 20 ((core2_ok C' L).hide.loc (x := S.loop) (g := g) (by krfl) hg.ne (one_ok (loop ws r hf))) ?_)
  kvc

/-- `member` (list.min:64-68): the first element that is equal, or false. -/
theorem d_member (C : Ctx Q σ) (L : Laws P nm) (k : RV) (hk : k ≠ .unbound) (eq : RV → Bool) (ws : List RV) (hf : ∀ w ∈ ws, Does P Q σ S.«equal?» [w, k] (ask (eq w))) :
    Does P Q σ S.member [k, listV ws] ((ws.find? eq).getD (ask false)) := by
  refine .plain C 165 (e := boot_13) rfl rfl (by decide) (.call 40 (lp ((ws.find? eq).getD (ask false))) isClo_top (core2_ok C L).hide (by simp [listV_ne, hk]) ?_)
  kvc
  khole
  refine .loop fun τ g s hg => ?_
  have C' := C.mono s
  have loop : ∀ (us : List RV), (∀ w ∈ us, Does P Q σ S.«equal?» [w, k] (ask (eq w))) → ZP P Q τ g [listV us] ((us.find? eq).getD (ask false)) := by
    intro us
    induction us with
    | nil =>
      intro _
      refine .call 40 nor hg (core2_ok C' L).hide (by simp [listV_ne]) ?_
      kvc
    | cons u us ih =>
      intro hf
      have h1 := (hf u (by simp)).mono s
      have ih := ih (fun w hw => hf w (List.mem_cons_of_mem u hw))
      rw [List.find?_cons]
      cases hp : eq u <;> rw [hp] at h1
      · refine .call 40 nor hg (((core2_ok C' L).does h1).hide.loc (x := S.loop) (g := g) (by krfl) hg.ne (one_ok ih)) (by simp [listV_ne]) ?_
        kvc
      · refine .call 40 nor hg ((core2_ok C' L).does h1).hide (by simp [listV_ne]) ?_
        kvc
  refine .one (.run (r := nor) 20 ((core2_ok C' L).hide.loc (x := S.loop) (g := g) (by krfl) hg.ne (one_ok (loop ws hf))) ?_)
  kvc

/-- `remove` (list.min:70-76): all elements that are equal go. -/
theorem d_remove (C : Ctx Q σ) (L : Laws P nm) (k : RV) (hk : k ≠ .unbound) (eq : RV → Bool) (ws : List RV) (hf : ∀ w ∈ ws, Does P Q σ S.«equal?» [w, k] (ask (eq w))) :
    Does P Q σ S.remove [k, listV ws] (listV (ws.filter (fun w => !eq w))) := by
  refine .plain C 166 (e := boot_14) rfl rfl (by decide) (.call 40 (lp (listV (ws.filter (fun w => !eq w)))) isClo_top (core2_ok C L).hide (by simp [listV_ne, hk]) ?_)
  kvc
  khole
  refine .loop fun τ g s hg => ?_
  have C' := C.mono s
  have loop : ∀ (us : List RV), (∀ w ∈ us, Does P Q σ S.«equal?» [w, k] (ask (eq w))) → ZP P Q τ g [listV us] (listV (us.filter (fun w => !eq w))) := by
    intro us
    induction us with
    | nil =>
      intro _
      refine .call 40 nor hg (core2_ok C' L).hide (by simp [listV_ne]) ?_
      kvc
    | cons u us ih =>
      intro hf
      have h1 := (hf u (by simp)).mono s
      have ih := ih (fun w hw => hf w (List.mem_cons_of_mem u hw))
      cases hp : eq u <;> rw [hp] at h1
      · rw [List.filter_cons_of_pos (by simp [hp])]
        refine .call 40 nor hg (((core2_ok C' L).does h1).hide.loc (x := S.loop) (g := g) (by krfl) hg.ne (one_ok ih)) (by simp [listV_ne]) ?_
        kvc
      · rw [List.filter_cons_of_neg (by simp [hp])]
        refine .call 40 nor hg (((core2_ok C' L).does h1).hide.loc (x := S.loop) (g := g) (by krfl) hg.ne (one_ok ih)) (by simp [listV_ne]) ?_
        kvc
  refine .one (.run (r := nor) 20 ((core2_ok C' L).hide.loc (x := S.loop) (g := g) (by krfl) hg.ne (one_ok (loop ws hf))) ?_)
  kvc

/-- `assoc` (list.min:110-116): the first pair whose car is equal, or false. -/
theorem d_assoc (C : Ctx Q σ) (L : Laws P nm) (k : RV) (hk : k ≠ .unbound) (eq : RV → Bool) (ps : List (RV × RV)) (hf : ∀ p ∈ ps, Does P Q σ S.«equal?» [k, p.1] (ask (eq p.1))) :
    Does P Q σ S.assoc [k, listV (ps.map (fun p => .cons p.1 p.2))] (((ps.find? (fun p => eq p.1)).map (fun p => (.cons p.1 p.2 : RV))).getD (ask false)) := by
  refine .plain C 171 (e := boot_19) rfl rfl (by decide) (.call 40 (lp (((ps.find? (fun p => eq p.1)).map (fun p => (.cons p.1 p.2 : RV))).getD (ask false))) isClo_top (core2_ok C L).hide (by simp [listV_ne, hk]) ?_)
  kvc
  khole
  refine .loop fun τ g s hg => ?_
  have C' := C.mono s
  have loop : ∀ (us : List (RV × RV)), (∀ p ∈ us, Does P Q σ S.«equal?» [k, p.1] (ask (eq p.1))) →
      ZP P Q τ g [listV (us.map (fun p => .cons p.1 p.2))] (((us.find? (fun p => eq p.1)).map (fun p => (.cons p.1 p.2 : RV))).getD (ask false)) := by
    intro us
    induction us with
    | nil =>
      intro _
      refine .call 40 nor hg (core2_ok C' L).hide (by simp [listV_ne]) ?_
      kvc
    | cons u us ih =>
      intro hf
      obtain ⟨a, d⟩ := u
      have h1 := (hf (a, d) (by simp)).mono s
      have ih := ih (fun w hw => hf w (List.mem_cons_of_mem _ hw))
      obtain ⟨g', c1, c2⟩ := z_caar C' L
      have c3 : Does P Q τ S.caar [listV (((a, d) :: us).map (fun p => .cons p.1 p.2))] a := by
        obtain ⟨g1, g2, d1, d2⟩ := C'.let1 9 prelude_10 S.caar S.«oops!» rfl rfl (by decide)
        obtain rfl : g' = g2 := by have := c1.2.symm.trans d1.2; cases this; rfl
        exact ⟨g', d2.ne, c1, c2 _ _ rfl⟩
      rw [List.find?_cons]
      cases hp : eq a <;> simp only [hp] at h1 ⊢
      · refine .call 40 nor hg ((((core2_ok C' L).does h1).does c3).hide.loc (x := S.loop) (g := g) (by krfl) hg.ne (one_ok ih)) (by simp [listV_ne]) ?_
        kvc
      · refine .call 40 nor hg (((core2_ok C' L).does h1).does c3).hide (by simp [listV_ne]) ?_
        kvc
  refine .one (.run (r := nor) 20 ((core2_ok C' L).hide.loc (x := S.loop) (g := g) (by krfl) hg.ne (one_ok (loop ps hf))) ?_)
  kvc

/-- `index-of` (list.min:118-123): the position of the first element that is equal, or false. -/
theorem d_indexOf (C : Ctx Q σ) (L : Laws P nm) (k : RV) (hk : k ≠ .unbound) (eq : RV → Bool) (ws : List RV) (hl : fits ws.length) (hf : ∀ w ∈ ws, Does P Q σ S.«equal?» [k, w] (ask (eq w))) :
    Does P Q σ S.«index-of» [k, listV ws] (((ws.findIdx? eq).map (fun (i : Nat) => N nm (i : Int))).getD (ask false)) := by
  refine .plain C 172 (e := boot_20) rfl rfl (by decide) (.call 40 (lp (((ws.findIdx? eq).map (fun (i : Nat) => N nm (i : Int))).getD (ask false))) isClo_top (core2_ok C L).hide (by simp [listV_ne, hk]) ?_)
  kvc
  khole
  refine .loop fun τ g s hg => ?_
  have C' := C.mono s
  have loop : ∀ (us : List RV) (i : Nat), i + us.length = ws.length → (∀ w ∈ us, Does P Q σ S.«equal?» [k, w] (ask (eq w))) → ZP P Q τ g [listV us, N nm i] (((us.findIdx? eq).map (fun j => N nm ((i + j : Nat) : Int))).getD (ask false)) := by
    intro us
    induction us with
    | nil =>
      intro i _ _
      refine .call 40 nor hg (core2_ok C' L).hide (by simp [listV_ne, N]) ?_
      kvc
    | cons u us ih =>
      intro i hi hf
      rw [List.length_cons] at hi
      have f0 : fits (i : Int) := by unfold fits at *; omega
      have f1 : fits ((i : Int) + 1) := by unfold fits at *; omega
      have ha := d_add C' L f0 fits1 f1
      rw [N1 L] at ha
      have h1 := (hf u (by simp)).mono s
      have ih := ih (i + 1) (by omega) (fun w hw => hf w (List.mem_cons_of_mem u hw))
      rw [show ((i + 1 : Nat) : Int) = (i : Int) + 1 from by omega] at ih
      rw [List.findIdx?_cons]
      cases hp : eq u <;> rw [hp] at h1
      · have e : (((us.findIdx? eq).map (fun i => i + 1)).map (fun j => N nm ((i + j : Nat) : Int))).getD (ask false) = ((us.findIdx? eq).map (fun j => N nm ((i + 1 + j : Nat) : Int))).getD (ask false) := by
          rw [Option.map_map]
          congr 2
          funext j
          simp only [Function.comp]
          congr 2
          omega
        rw [if_neg (by simp), e]
        refine .call 40 nor hg ((((core2_ok C' L).does h1).does ha).hide.loc (x := S.loop) (g := g) (by krfl) hg.ne (one_ok ih)) (by simp [listV_ne, N]) ?_
        kvc
      · refine .call 40 nor hg ((core2_ok C' L).does h1).hide (by simp [listV_ne, N]) ?_
        kvc
  have := loop ws 0 (by omega) hf
  simp only [Nat.zero_add] at this
  rw [show ((0 : Nat) : Int) = 0 from rfl, N0 L] at this
  refine .one (.run (r := nor) 20 ((core2_ok C' L).hide.loc (x := S.loop) (g := g) (by krfl) hg.ne (one_ok this)) ?_)
  kvc

/-- `list-set` (list.min:125-134): the element at the position is replaced. -/
theorem d_listSet (C : Ctx Q σ) (L : Laws P nm) (ws : List RV) (k : Nat) (v : RV) (hv : v ≠ .unbound) (hk : fits k) (hl : k < ws.length) : Does P Q σ S.«list-set» [listV ws, N nm k, v] (listV (ws.set k v)) := by
  have h0 := d_nonneg C L hk
  rw [decide_eq_true (by omega)] at h0
  refine .plain C 173 (e := boot_21) rfl rfl (by decide) (.call 40 (lp (listV (ws.set k v))) isClo_top ((core2_ok C L).does h0).hide (by simp [listV_ne, N, hv]) ?_)
  kvc
  khole
  refine .loop fun τ g s hg => ?_
  have C' := C.mono s
  have loop : ∀ (us : List RV) (i j : Nat) (acc : List RV), i + j = k → j < us.length → ZP P Q τ g [listV us, N nm i, listV acc] (listV (acc.reverse ++ us.set j v)) := by
    intro us
    induction us with
    | nil => intro i j _ _ h; cases h
    | cons u us ih =>
      intro i j acc hij h
      have fi : fits (i : Int) := by unfold fits at *; omega
      have he := d_eq C' L fi hk
      match j with
      | 0 =>
        rw [decide_eq_true (by omega)] at he
        have ha := d_append C' L [acc.reverse, v :: us]
        simp only [List.map, List.flatten_cons, List.flatten_nil, List.append_nil] at ha
        rw [List.set_cons_zero]
        refine .call 40 nor hg ((((core2_ok C' L).does he).does ha).does (d_reverse C' L acc)).hide (by simp [listV_ne, N]) ?_
        kvc
      | j + 1 =>
        rw [decide_eq_false (by omega)] at he
        have hs := d_add C' L fi fits1 (by unfold fits at *; omega)
        rw [N1 L] at hs
        have ih := ih (i + 1) j (u :: acc) (by omega) (by simpa using h)
        rw [show ((i + 1 : Nat) : Int) = (i : Int) + 1 from by omega, List.reverse_cons, List.append_assoc] at ih
        rw [List.set_cons_succ]
        refine .call 40 nor hg (((core2_ok C' L).does he).does hs |>.hide.loc (x := S.loop) (g := g) (by krfl) hg.ne (one_ok ih)) (by simp [listV_ne, N]) ?_
        kvc
  have := loop ws 0 k [] (by omega) hl
  rw [show ((0 : Nat) : Int) = 0 from rfl, N0 L] at this
  refine .one (.run (r := nor) 20 ((core2_ok C' L).hide.loc (x := S.loop) (g := g) (by krfl) hg.ne (one_ok this)) ?_)
  kvc

end Minim.Fix

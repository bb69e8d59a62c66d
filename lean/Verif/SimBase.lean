import Verif.RefSem
import Verif.CompileSlots
import Verif.JitFvProps

set_option autoImplicit false

/-!
# Relating reference semantics and machine: definitions and lemmas
-/

namespace Minim.Jit

open Minim.Sx Minim.Core

/-! ## Code of the built-in procedures -/

/-- `compile_do_ret` (jitprims.c:6-31): check the number of arguments, one instruction, return. -/
def doRetItems (n : Nat) (i : I Nat Nat) : List Item :=
  [.ins (.mov .res .ac), .ins (.branchne n 0), .ins i, .ins .ret, .lab 0, .ins .doArityError]

/-- `compile_prim` (jitprims.c:33-35): a C function of `n` arguments. -/
def primCode (n p : Nat) : Code := .mk [.mov .res .ac, .branchne n 4, .ccall p, .ret, .doArityError] (.fix n)

/-- `compile_apply` (jitprims.c:48-73). -/
def applyItems : List Item :=
  [.ins (.mov .res .ac), .ins (.branchlt 2 0), .ins .doApply, .ins .ret, .lab 0, .ins .doArityError]

/-- `compile_apply` (jitprims.c:48-73): the code. -/
def applyCode : Code := .mk [.mov .res .ac, .branchlt 2 4, .doApply, .ret, .doArityError] (.pair 2 .fls)

/-- `compile_values` (jitprims.c:76-96): the code. -/
def valuesCode : Code := .mk [.doValues, .ret] (.pair 0 .fls)

theorem primCode_eq (n p : Nat) : assemble [] (doRetItems n (.ccall p)) (.fix n) = .ok (primCode n p) := rfl

theorem applyCode_eq : assemble [] applyItems (.pair 2 .fls) = .ok applyCode := rfl

theorem valuesCode_eq : assemble [] [.ins .doValues, .ins .ret] (.pair 0 .fls) = .ok valuesCode := rfl

/-! ## Relations -/

/-- The machine cell of a variable. -/
def locOf (e0 : Nat) (ρ : REnv) (x : Sym) : Loc :=
  match ρ x with
  | some c => .cell c
  | none => .glob e0 x

/-- A clause fits into the space reserved for it. -/
def FitCl (c : Cl) (b : List Sym) : Prop :=
  match c with
  | .mk f body => f.ids.length + (boundVarsSeq body []).1.length ≤ b.length

/-- Relatedness of procedures. -/
inductive CloRel (e0 : Nat) : RC → MC → Prop where
  | clo {ρ : REnv} {cs : List Cl} {c : MC} (fvs : List Sym) (bounds : List (List Sym)) (is : List Item) (l m : Nat) (tm tm' : List Code) (ar : Ar)
      (comp : compileClauses cs fvs bounds none 0 tm = .ok (is, some l, m, tm'))
      (asm : assemble tm' (is ++ [.lab l, .ins .doArityError]) ar = .ok c.code)
      (hc : hasClausesC cs = true) (ok : okC cs = true)
      (fv : ∀ f body e x, Cl.mk f body ∈ cs → e ∈ body → Free x e → x ∈ f.ids ∨ x ∈ fvs)
      (fit : List.Forall₂ FitCl cs bounds)
      (cells : c.cells = fvs.map (fun x => some (locOf e0 ρ x))) : CloRel e0 (.clo ρ cs) c
  | prim {p n : Nat} {c : MC} (code : c.code = primCode n p) : CloRel e0 (.prim p n) c
  | values {c : MC} (code : c.code = valuesCode) : CloRel e0 .values c
  | apply {c : MC} (code : c.code = applyCode) : CloRel e0 .apply c

/-- Relatedness of values. -/
abbrev VR (e0 : Nat) : RV → MV → Prop := VRel (CloRel e0)

/-- Relatedness of top-level variables: the machine makes cells of variables that are not defined yet. -/
def GRel (e0 : Nat) : Option RV → Option MV → Prop
  | none, none => True
  | none, some .unbound => True
  | some v, some w => VR e0 v w
  | _, _ => False

/-- Relatedness of states. -/
structure SRel (e0 : Nat) (σ : RS) (s : St) : Prop where
  tenv : s.tenv = .tenv e0
  cells : List.Forall₂ (VR e0) σ.cells s.cells
  globs : ∀ x, GRel e0 (σ.globs x) (s.globs e0 x)

/-- Relatedness of results: one value, or the marker of multiple values. -/
def ResRel (e0 : Nat) (vs : List RV) (s : St) : Prop :=
  (∃ v, vs = [v] ∧ VR e0 v s.res) ∨ (vs.length ≠ 1 ∧ s.res = .values ∧ List.Forall₂ (VR e0) vs s.vals)

/-- The slots of the current environment hold the cells of the variables in scope. -/
def FrRel (e0 : Nat) (ρ : REnv) (sc : Scope) (s : St) : Prop := ∀ x i, scopeRef sc x = some i → s.slot i = some (locOf e0 ρ x)

/-- What is known about variables not in scope: at top level all local variables are in scope; inside procedures all variables (satisfying `F`) are. -/
def ScOK (loc : Option (List Sym)) (sc : Scope) (ρ : REnv) (F : Sym → Prop) : Prop :=
  match loc with
  | some L => L = sc ∧ ∀ x, x ∉ sc → ρ x = none
  | none => ∀ x, F x → x ∈ sc

/-- Environments other than the current one are unchanged, and of the current one the first `k` slots. -/
structure Pres (k : Nat) (s s' : St) : Prop where
  len : s.envs.length ≤ s'.envs.length
  others : ∀ i, i < s.envs.length → i ≠ s.env → s'.envs[i]? = s.envs[i]?
  own : ∀ fr, s.envs[s.env]? = some fr → ∃ fr', s'.envs[s.env]? = some fr' ∧ fr'.length = fr.length ∧ ∀ i, i < k → fr'[i]? = fr[i]?

theorem Pres.refl (k : Nat) (s : St) : Pres k s s := ⟨Nat.le_refl _, fun _ _ _ => rfl, fun fr h => ⟨fr, h, rfl, fun _ _ => rfl⟩⟩

theorem Pres.of_eq {k : Nat} {s s' : St} (h : s'.envs = s.envs) : Pres k s s' := by
  refine ⟨Nat.le_of_eq (by rw [h]), fun _ _ _ => by rw [h], fun fr hf => ⟨fr, by rw [h, hf], rfl, fun _ _ => rfl⟩⟩

theorem Pres.of_prefix {k : Nat} {s s' : St} {new : List (List (Option Loc))} (h : s'.envs = s.envs ++ new) : Pres k s s' := by
  refine ⟨by rw [h]; simp, fun i hi _ => by rw [h, List.getElem?_append_left hi], fun fr hf => ⟨fr, ?_, rfl, fun _ _ => rfl⟩⟩
  have : s.env < s.envs.length := (List.getElem?_eq_some_iff.1 hf).1
  rw [h, List.getElem?_append_left this, hf]

theorem Pres.trans {k : Nat} {a b c : St} (h1 : Pres k a b) (h2 : Pres k b c) (he : b.env = a.env) : Pres k a c := by
  refine ⟨Nat.le_trans h1.len h2.len, fun i hi hn => ?_, fun fr hf => ?_⟩
  · rw [h2.others i (Nat.lt_of_lt_of_le hi h1.len) (by rw [he]; exact hn), h1.others i hi hn]
  · obtain ⟨f1, e1, e2, e3⟩ := h1.own fr hf
    obtain ⟨f2, g1, g2, g3⟩ := h2.own f1 (by rw [he]; exact e1)
    exact ⟨f2, by rw [← he]; exact g1, by rw [g2, e2], fun i hi => by rw [g3 i hi, e3 i hi]⟩

theorem Pres.mono {k k' : Nat} {s s' : St} (h : Pres k s s') (hk : k' ≤ k) : Pres k' s s' :=
  ⟨h.len, h.others, fun fr hf => by obtain ⟨f, a, b, c⟩ := h.own fr hf; exact ⟨f, a, b, fun i hi => c i (by omega)⟩⟩

/-- The same with other start and end states that agree on environments. -/
theorem Pres.congr {k : Nat} {a b a' b' : St} (h : Pres k a b) (h1 : a'.envs = a.envs) (h2 : a'.env = a.env) (h3 : b'.envs = b.envs) : Pres k a' b' := by
  refine ⟨by rw [h1, h3]; exact h.len, by rw [h1, h2, h3]; exact h.others, by rw [h1, h2, h3]; exact h.own⟩

theorem Pres.slots {k : Nat} {s s' : St} (h : Pres k s s') (he : s'.env = s.env) : s.slots ≤ s'.slots := by
  rw [St.slots, St.slots, he]
  cases hf : s.envs[s.env]? with
  | none => exact Nat.zero_le _
  | some fr =>
    obtain ⟨f, a, b, _⟩ := h.own fr hf
    rw [a]; exact Nat.le_of_eq b.symm

theorem Pres.slot {k : Nat} {s s' : St} (h : Pres k s s') (he : s'.env = s.env) {i : Nat} (hi : i < k) {l : Loc} (hl : s.slot i = some l) :
    s'.slot i = some l := by
  rw [St.slot] at hl ⊢
  rw [he]
  cases hf : s.envs[s.env]? with
  | none => rw [hf] at hl; exact absurd hl (by simp)
  | some fr =>
    rw [hf] at hl
    obtain ⟨f, a, _, c⟩ := h.own fr hf
    rw [a]
    simp only at hl ⊢
    rw [c i hi, hl]

theorem FrRel.pres {e0 : Nat} {ρ : REnv} {sc : Scope} {s s' : St} (h : FrRel e0 ρ sc s) (hp : Pres sc.length s s') (he : s'.env = s.env) :
    FrRel e0 ρ sc s' := fun x i hx => hp.slot he (scopeRef_lt hx) (h x i hx)

theorem FrRel.congr {e0 : Nat} {ρ : REnv} {sc : Scope} {s s' : St} (h : FrRel e0 ρ sc s) (h1 : s'.envs = s.envs) (h2 : s'.env = s.env) :
    FrRel e0 ρ sc s' := by
  intro x i hx
  have := h x i hx
  rw [St.slot] at this ⊢
  rw [h1, h2]; exact this

theorem SRel.congr {e0 : Nat} {σ : RS} {s s' : St} (h : SRel e0 σ s) (h1 : s'.tenv = s.tenv) (h2 : s'.cells = s.cells) (h3 : s'.globs = s.globs) :
    SRel e0 σ s' := ⟨by rw [h1]; exact h.tenv, by rw [h2]; exact h.cells, by rw [h3]; exact h.globs⟩

theorem slots_congr {s s' : St} (h1 : s'.envs = s.envs) (h2 : s'.env = s.env) : s'.slots = s.slots := by rw [St.slots, St.slots, h1, h2]

theorem ScOK.mono {loc : Option (List Sym)} {sc : Scope} {ρ : REnv} {F G : Sym → Prop} (h : ScOK loc sc ρ F) (hg : ∀ x, G x → F x) : ScOK loc sc ρ G := by
  cases loc with
  | none => exact fun x hx => h x (hg x hx)
  | some L => exact h

/-! ## Values -/

theorem VRel.force {e0 : Nat} {v : RV} {w : MV} (h : VR e0 v w) : Minim.Jit.force w = some w := by cases h <;> rfl

theorem VRel.ne_values {e0 : Nat} {v : RV} {w : MV} (h : VR e0 v w) : w ≠ .values := by cases h <;> simp

theorem VRel.isFalse {C C' : Type} {R : C → C' → Prop} {v : V C} {w : V C'} (h : VRel R v w) : Minim.Jit.isFalse w = Minim.Jit.isFalse v := by
  cases h with
  | lit l => cases l <;> rfl
  | _ => rfl

theorem VRel.unbound_iff {C C' : Type} {R : C → C' → Prop} {v : V C} {w : V C'} (h : VRel R v w) : w = .unbound ↔ v = .unbound := by cases h <;> simp

theorem VRel.ofX {C C' : Type} {R : C → C' → Prop} : ∀ (d : X), VRel R (ofX d) (Minim.Jit.ofX d)
  | .null => .null
  | .sym s => .sym s
  | .lit l => .lit l
  | .other n => .other n
  | .cons a d => .cons (VRel.ofX a) (VRel.ofX d)

theorem VRel.listV {C C' : Type} {R : C → C' → Prop} {vs : List (V C)} {ws : List (V C')} (h : List.Forall₂ (VRel R) vs ws) :
    VRel R (Minim.Jit.listV vs) (Minim.Jit.listV ws) := by
  induction h with
  | nil => exact .null
  | cons h _ ih => exact .cons h ih

theorem VRel.unlist {C C' : Type} {R : C → C' → Prop} {v : V C} {w : V C'} (h : VRel R v w) :
    ∀ {vs : List (V C)}, Minim.Jit.unlist v = some vs → ∃ ws, Minim.Jit.unlist w = some ws ∧ List.Forall₂ (VRel R) vs ws := by
  induction h with
  | null => intro vs h; cases h; exact ⟨[], rfl, .nil⟩
  | cons h1 _ _ ih =>
    intro vs hv
    simp only [Minim.Jit.unlist, Option.map_eq_some_iff] at hv
    obtain ⟨us, hu, rfl⟩ := hv
    obtain ⟨ws, hw, hr⟩ := ih hu
    exact ⟨_, by simp only [Minim.Jit.unlist, hw]; rfl, .cons h1 hr⟩
  | _ => intro vs h; simp [Minim.Jit.unlist] at h

theorem VRel.clo_inv {e0 : Nat} {f : RC} {w : MV} (h : VR e0 (.clo f) w) : ∃ c, w = .clo c ∧ CloRel e0 f c := by
  cases h with
  | clo h => exact ⟨_, rfl, h⟩

theorem Forall₂.take {α β : Type} {R : α → β → Prop} {a : List α} {b : List β} (h : List.Forall₂ R a b) : ∀ n, List.Forall₂ R (a.take n) (b.take n) := by
  induction h with
  | nil => intro n; simp
  | cons h _ ih =>
    intro n
    cases n with
    | zero => simp
    | succ n => simpa using ⟨h, ih n⟩

theorem Forall₂.drop {α β : Type} {R : α → β → Prop} {a : List α} {b : List β} (h : List.Forall₂ R a b) : ∀ n, List.Forall₂ R (a.drop n) (b.drop n) := by
  induction h with
  | nil => intro n; simp
  | cons h t ih =>
    intro n
    cases n with
    | zero => simpa using ⟨h, t⟩
    | succ n => simpa using ih n

theorem Forall₂.append {α β : Type} {R : α → β → Prop} {a : List α} {b : List β} (h : List.Forall₂ R a b) {c : List α} {d : List β} (h' : List.Forall₂ R c d) :
    List.Forall₂ R (a ++ c) (b ++ d) := by
  induction h with
  | nil => exact h'
  | cons h _ ih => exact .cons h ih

theorem Forall₂.get {α β : Type} {R : α → β → Prop} {a : List α} {b : List β} (h : List.Forall₂ R a b) : ∀ {i : Nat} {x : α}, a[i]? = some x →
    ∃ y, b[i]? = some y ∧ R x y := by
  induction h with
  | nil => intro i x h; simp at h
  | cons h _ ih =>
    intro i x hx
    cases i with
    | zero => simp only [List.getElem?_cons_zero, Option.some.injEq] at hx; subst hx; exact ⟨_, rfl, h⟩
    | succ i => simpa using ih (by simpa using hx)

theorem Forall₂.set {α β : Type} {R : α → β → Prop} {a : List α} {b : List β} (h : List.Forall₂ R a b) {x : α} {y : β} (hr : R x y) : ∀ (i : Nat),
    List.Forall₂ R (a.set i x) (b.set i y) := by
  induction h with
  | nil => intro i; exact .nil
  | cons h t ih =>
    intro i
    cases i with
    | zero => exact .cons hr t
    | succ i => exact .cons h (ih i)

/-! ## Positions in code -/

/-- The code object a template index stands for. -/
def tref (tm : List Code) (i : Nat) : Code := (tm.reverse[i]?).getD (.mk [] .null)

/-- The instructions `is` stand at position `pc` of the code. -/
structure Here (items : List Item) (tm : List Code) (code : List (I Nat Code)) (pc : Nat) (is : List Item) : Prop where
  code_eq : code = (instrs items).map (mapI (labPos items) (tref tm))
  nodup : (labs items).Nodup
  at_ : ∃ pre post, items = pre ++ is ++ post ∧ pc = (instrs pre).length

theorem Here.left {items : List Item} {tm : List Code} {code : List (I Nat Code)} {pc : Nat} {a b : List Item} (h : Here items tm code pc (a ++ b)) :
    Here items tm code pc a := by
  obtain ⟨pre, post, h1, h2⟩ := h.at_
  exact ⟨h.code_eq, h.nodup, pre, b ++ post, by rw [h1]; simp, h2⟩

theorem Here.right {items : List Item} {tm : List Code} {code : List (I Nat Code)} {pc : Nat} {a b : List Item} (h : Here items tm code pc (a ++ b)) :
    Here items tm code (pc + (instrs a).length) b := by
  obtain ⟨pre, post, h1, h2⟩ := h.at_
  exact ⟨h.code_eq, h.nodup, pre ++ a, post, by rw [h1]; simp, by rw [h2, instrs_append, List.length_append]⟩

theorem Here.next {items : List Item} {tm : List Code} {code : List (I Nat Code)} {pc : Nat} {i : I Nat Nat} {r : List Item}
    (h : Here items tm code pc (.ins i :: r)) : Here items tm code (pc + 1) r := Here.right (a := [.ins i]) h

theorem Here.skip {items : List Item} {tm : List Code} {code : List (I Nat Code)} {pc l : Nat} {r : List Item}
    (h : Here items tm code pc (.lab l :: r)) : Here items tm code pc r := Here.right (a := [.lab l]) h

theorem Here.lab {items : List Item} {tm : List Code} {code : List (I Nat Code)} {pc l : Nat} {r : List Item}
    (h : Here items tm code pc (.lab l :: r)) : labPos items l = pc := by
  obtain ⟨pre, post, h1, h2⟩ := h.at_
  rw [h2]
  exact labPos_eq (post := r ++ post) h.nodup (by rw [h1]; simp)

theorem Here.fetch {items : List Item} {tm : List Code} {code : List (I Nat Code)} {pc : Nat} {i : I Nat Nat} {r : List Item}
    (h : Here items tm code pc (.ins i :: r)) : code[pc]? = some (mapI (labPos items) (tref tm) i) := by
  obtain ⟨pre, post, h1, h2⟩ := h.at_
  rw [h.code_eq, List.getElem?_map, h2, h1]
  rw [List.append_assoc, instrs_append, List.getElem?_append_right (Nat.le_refl _), Nat.sub_self]
  rfl

theorem Here.step {items : List Item} {tm : List Code} {s : St} {i : I Nat Nat} {r : List Item}
    (h : Here items tm s.code s.pc (.ins i :: r)) (host : Host) : step host s = s.exec host (mapI (labPos items) (tref tm) i) := by
  rw [Minim.Jit.step, h.fetch]

theorem tref_ext {tm1 new tm : List Code} {c : Code} (h : tm = new ++ c :: tm1) : tref tm tm1.length = c := by
  subst h
  rw [tref, List.reverse_append, List.reverse_cons, List.append_assoc, List.getElem?_append_right (by simp)]
  simp

/-! ## Scopes -/

theorem scopeBind_eq (xs : List Sym) : ∀ (sc : Scope), scopeBind sc xs = xs.reverse ++ sc := by
  induction xs with
  | nil => intro sc; rfl
  | cons x xs ih => intro sc; rw [scopeBind, List.foldl_cons, ← scopeBind, ih]; simp

theorem scopeRef_some {sc : Scope} {x : Sym} : x ∈ sc ↔ ∃ i, scopeRef sc x = some i := by
  induction sc with
  | nil => simp [scopeRef]
  | cons y ys ih =>
    rw [scopeRef]
    by_cases h : y = x
    · simp [h]
    · rw [if_neg h, ← ih]
      simp only [List.mem_cons]
      exact ⟨fun h' => h'.resolve_left (fun e => h e.symm), Or.inr⟩

theorem scopeRef_none {sc : Scope} {x : Sym} : scopeRef sc x = none ↔ x ∉ sc := by
  rw [scopeRef_some]
  cases scopeRef sc x <;> simp

theorem scopeRef_get {sc : Scope} {x : Sym} {i : Nat} (h : scopeRef sc x = some i) : sc.reverse[i]? = some x := by
  induction sc with
  | nil => simp [scopeRef] at h
  | cons y ys ih =>
    rw [scopeRef] at h
    rw [List.reverse_cons]
    split at h
    next hy => cases h; subst hy; rw [List.getElem?_append_right (by simp)]; simp
    next =>
      have := scopeRef_lt h
      rw [List.getElem?_append_left (by simpa using this)]; exact ih h

end Minim.Jit

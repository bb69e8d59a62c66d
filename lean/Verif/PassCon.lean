import Verif.PassStep

set_option autoImplicit false

/-!
# Consumers of the second pass
-/

namespace Minim.Jit

open Minim.Sx Minim.Core

mutual

/-- Specification: `call-with-values` is only called directly, and the consumers are expressions whose value another evaluation cannot change. -/
def SC (K : Kn) : E → Prop
  | .var x => x ≠ .callWithValues
  | .lit _ | .quote _ | .quoteSyntax _ | .unbound => True
  | .define _ e => SC K e
  | .set _ e => SC K e
  | .ite c t e => SC K c ∧ SC K t ∧ SC K e
  | .letv bs es => SCB K bs ∧ SCL K es
  | .letrecv bs es => SCB K bs ∧ SCL K es
  | .lam _ es => SCL K es
  | .clam cs => SCC K cs
  | .begin es => SCL K es
  | .app f es => SCL K es ∧ (SC K f ∨ (f = .var .callWithValues ∧ ∃ p c r, es = p :: c :: r ∧ Stable K c))
  | .mvcall e c => SC K e ∧ SC K c ∧ Stable K c
  | .mvlet e _ b => SC K e ∧ SC K b
  | .mvvals es => SCL K es

/-- Specification: the same for lists. -/
def SCL (K : Kn) : List E → Prop
  | [] => True
  | e :: es => SC K e ∧ SCL K es

/-- Specification: the same for bindings. -/
def SCB (K : Kn) : List Bd → Prop
  | [] => True
  | .mk _ e :: bs => SC K e ∧ SCB K bs

/-- Specification: the same for clauses. -/
def SCC (K : Kn) : List Cl → Prop
  | [] => True
  | .mk _ es :: cs => SCL K es ∧ SCC K cs

end

section
variable {K : Kn} {F : Sym → Prop}

theorem Tr.stable {c c' : E} (h : Tr K F c c') (hs : Stable K c) : Stable K c' := by
  cases h <;> first | exact hs | exact hs.elim | trivial

theorem Tr.var_inv {x : Sym} {e : E} (h : Tr K F (.var x) e) : e = .var x := by cases h; rfl

theorem SC.asExpr : ∀ {es : List E}, SCL K es → SC K (asExpr es)
  | [], h => by simpa [Minim.Jit.asExpr, SC] using h
  | [e], h => by rw [SCL] at h; exact h.1
  | _ :: _ :: _, h => by simpa [Minim.Jit.asExpr, SC] using h

theorem SCL.append : ∀ {es fs : List E}, SCL K (es ++ fs) ↔ SCL K es ∧ SCL K fs
  | [], fs => by simp [SCL]
  | e :: es, fs => by simp [SCL, SCL.append (es := es), and_assoc]

theorem SCL.replicate {e : E} (h : SC K e) : ∀ n, SCL K (List.replicate n e)
  | 0 => by simp [SCL]
  | n + 1 => by simp [List.replicate, SCL, h, SCL.replicate h n]

theorem SCL.vars : ∀ {ts : List Sym}, (∀ t ∈ ts, ∃ j, t = .gen j) → SCL K (ts.map .var)
  | [], _ => by simp [SCL]
  | t :: ts, h => by
    obtain ⟨j, rfl⟩ := h t (by simp)
    simp only [List.map_cons, SCL, SC]
    exact ⟨by simp, SCL.vars fun t ht => h t (List.mem_cons_of_mem _ ht)⟩

theorem SC.cwvLam {f g : Formals} {es fs : List E} (h : SCL K es) (h' : SCL K fs) : SC K (.app (.var .callWithValues) [.lam f es, .lam g fs]) := by
  simp only [SC, SCL]
  exact ⟨⟨h, h', trivial⟩, .inr ⟨trivial, _, _, _, rfl, trivial⟩⟩

theorem let2_sc : ∀ {k : Nat} {bs : List Bd} {ids tmps : List Sym} {es : List E}, SCB K bs → SCL K es → (∀ t ∈ tmps, ∃ j, t = .gen j) → SC K (let2 k bs ids tmps es)
  | k, [], ids, tmps, es, _, h4, h5 => by
    simp only [let2, SC]
    exact ⟨SCL.vars h5, .inl h4⟩
  | k, .mk xs e :: bs, ids, tmps, es, h3, h4, h5 => by
    rw [SCB] at h3
    rw [let2]
    refine .cwvLam (by rw [SCL, SCL]; exact ⟨h3.1, trivial⟩) ?_
    rw [SCL, SCL]
    refine ⟨let2_sc h3.2 h4 ?_, trivial⟩
    intro t ht
    rcases List.mem_append.1 ht with h | h
    · obtain ⟨j, e, _⟩ := mem_tmpIds h; exact ⟨j, e⟩
    · exact h5 t h

theorem setBody_sc : ∀ {xs ts : List Sym}, (∀ t ∈ ts, ∃ j, t = .gen j) → SCL K (setBody xs ts)
  | [], _, _ => by simp [setBody, SCL]
  | x :: xs, [], _ => by simp [setBody, SCL]
  | x :: xs, t :: ts, h => by
    obtain ⟨j, rfl⟩ := h t (by simp)
    simp only [setBody, SCL, SC]
    exact ⟨by simp, setBody_sc fun y hy => h y (by simp [hy])⟩

theorem setExprs_sc : ∀ {k : Nat} {bs : List Bd}, SCB K bs → SCL K (setExprs k bs)
  | _, [], _ => by simp [setExprs, SCL]
  | k, .mk xs e :: bs, hw => by
    rw [SCB] at hw
    simp only [setExprs, setExpr]
    rw [SCL]
    refine ⟨.cwvLam (by rw [SCL, SCL]; exact ⟨hw.1, trivial⟩) ?_, setExprs_sc hw.2⟩
    split
    · simp [SCL, SC]
    · exact setBody_sc fun t ht => by obtain ⟨j, e, _⟩ := mem_tmpIds ht; exact ⟨j, e⟩

theorem values_sc : SC K (.var .values) := by simp [SC]

mutual

theorem Tr.sc : ∀ {e e' : E}, Tr K F e e' → SC K e → SC K e'
  | _, _, .var _, hw => hw
  | _, _, .lit _, _ => by simp [SC]
  | _, _, .quote _, _ => by simp [SC]
  | _, _, .quoteSyntax _, _ => by simp [SC]
  | _, _, .unbound, _ => by simp [SC]
  | _, _, .define h, hw => by simp only [SC] at hw ⊢; exact h.sc hw
  | _, _, .set h, hw => by simp only [SC] at hw ⊢; exact h.sc hw
  | _, _, .ite h1 h2 h3, hw => by simp only [SC] at hw ⊢; exact ⟨h1.sc hw.1, h2.sc hw.2.1, h3.sc hw.2.2⟩
  | _, _, .letv h1 h2, hw => by simp only [SC] at hw ⊢; exact ⟨h1.sc hw.1, h2.sc hw.2⟩
  | _, _, .letrecv h1 h2, hw => by simp only [SC] at hw ⊢; exact ⟨h1.sc hw.1, h2.sc hw.2⟩
  | _, _, .lam h, hw => by simp only [SC] at hw ⊢; exact h.sc hw
  | _, _, .clam h, hw => by simp only [SC] at hw ⊢; exact h.sc hw
  | _, _, .begin h, hw => by simp only [SC] at hw ⊢; exact h.sc hw
  | _, _, .app h1 h2, hw => by
    simp only [SC] at hw ⊢
    refine ⟨h2.sc hw.1, ?_⟩
    rcases hw.2 with h | ⟨rfl, p, c, r, rfl, hst⟩
    · exact .inl (h1.sc h)
    · cases h2 with
      | cons ha hb =>
        cases hb with
        | cons hc hd => exact .inr ⟨h1.var_inv, _, _, _, rfl, hc.stable hst⟩
  | _, _, .mvcall h1 h2, hw => by simp only [SC] at hw ⊢; exact ⟨h1.sc hw.1, h2.sc hw.2.1, h2.stable hw.2.2⟩
  | _, _, .mvlet h1 h2, hw => by simp only [SC] at hw ⊢; exact ⟨h1.sc hw.1, h2.sc hw.2⟩
  | _, _, .mvvals h, hw => by simp only [SC] at hw ⊢; exact h.sc hw
  | _, _, .let0 h, hw => by simp only [SC] at hw ⊢; exact h.sc hw.2
  | _, _, .let1 _ h1 h2, hw => by
    simp only [SC, SCB] at hw
    exact .cwvLam (by rw [SCL, SCL]; exact ⟨h1.sc hw.1.1, trivial⟩) (h2.sc hw.2)
  | _, _, .let2 k hG h1 h2, hw => by
    simp only [SC] at hw
    exact let2_sc (h1.sc hw.1) (h2.sc hw.2) (by simp)
  | _, _, .letrec0 h, hw => by simp only [SC] at hw ⊢; exact h.sc hw.2
  | _, _, .letrec1 k hG h1 h2 _, hw => by
    simp only [SC] at hw
    refine .cwvLam ?_ (SCL.append.2 ⟨setExprs_sc (h1.sc hw.1), h2.sc hw.2⟩)
    simp only [SCL, SC]
    exact ⟨⟨SCL.replicate (by simp [SC]) _, .inl (by simp)⟩, trivial⟩
  | _, _, .clam1 h, hw => by
    simp only [SC, SCC] at hw ⊢
    exact h.sc hw.1
  | _, _, .values1 h, hw => by simp only [SC, SCL] at hw; exact h.sc hw.1.1
  | _, _, .values h, hw => by simp only [SC] at hw ⊢; exact h.sc hw.1
  | _, _, .cwv h1 h2 hst, hw => by
    simp only [SC, SCL] at hw ⊢
    exact ⟨⟨trivial, .inl (h1.sc hw.1.1)⟩, h2.sc hw.1.2.1, h2.stable hst⟩
  | _, _, .cwvMore h1 h2, hw => by
    simp only [SC, SCL] at hw ⊢
    refine ⟨⟨trivial, .inl (h1.sc hw.1.1)⟩, h2.sc hw.1.2.1, ?_⟩
    rcases hw.2 with h | ⟨_, p, c, r, e, hst⟩
    · exact absurd rfl h
    · cases e; exact h2.stable hst
  | _, _, .mvThunk h1 h2, hw => by
    simp only [SC] at hw ⊢
    refine ⟨SC.asExpr (h1.sc ?_), h2.sc hw.2.1, h2.stable hw.2.2⟩
    rcases hw.1.2 with h | ⟨e, _⟩
    · exact h
    · cases e
  | _, _, .mvVals h1 h2 _, hw => by
    simp only [SC] at hw ⊢
    exact ⟨h1.sc hw.1, .inl (h2.sc hw.2.1)⟩
  | _, _, .mvBegin h1 h2 h3, hw => by
    simp only [SC, SCL.append, SCL] at hw ⊢
    exact ⟨h1.sc hw.1.1, ⟨h2.sc hw.1.2.1, h3.sc hw.2.1, h3.stable hw.2.2⟩, trivial⟩
  | _, _, .mvIf h1 h2 h3 h4, hw => by
    simp only [SC] at hw ⊢
    exact ⟨h1.sc hw.1.1, ⟨h2.sc hw.1.2.1, h4.sc hw.2.1, h4.stable hw.2.2⟩, h3.sc hw.1.2.2, h4.sc hw.2.1, h4.stable hw.2.2⟩
  | _, _, .mvAtom h1 h2 _ _, hw => by
    simp only [SC, SCL] at hw ⊢
    exact ⟨⟨h1.sc hw.1, trivial⟩, .inl (h2.sc hw.2.1)⟩
  | _, _, .mvLam h1 h2, hw => by
    simp only [SC] at hw ⊢
    exact ⟨h1.sc hw.1, SC.asExpr (h2.sc hw.2.1)⟩
  | _, _, .app0 h, hw => by
    simp only [SC] at hw
    rcases hw.2 with h' | ⟨e, _⟩
    · exact SC.asExpr (h.sc h')
    · cases e
  | _, _, .app1 h1 h2, hw => by
    simp only [SC, SCL] at hw ⊢
    rcases hw.2 with h' | ⟨e, _⟩
    · exact ⟨h1.sc hw.1.1, SC.asExpr (h2.sc h')⟩
    · cases e
  | _, _, .app2 h1 h2, hw => by
    simp only [SC] at hw ⊢
    rcases hw.2 with h' | ⟨e, _⟩
    · exact ⟨⟨h1.sc hw.1, .inl (by simp)⟩, SC.asExpr (h2.sc h')⟩
    · cases e

theorem TrL.sc : ∀ {e e' : List E}, TrL K F e e' → SCL K e → SCL K e'
  | _, _, .nil, _ => by simp [SCL]
  | _, _, .cons h1 h2, hw => by rw [SCL] at hw ⊢; exact ⟨h1.sc hw.1, h2.sc hw.2⟩

theorem TrB.sc : ∀ {e e' : List Bd}, TrB K F e e' → SCB K e → SCB K e'
  | _, _, .nil, _ => by simp [SCB]
  | _, _, .cons h1 h2, hw => by rw [SCB] at hw ⊢; exact ⟨h1.sc hw.1, h2.sc hw.2⟩

theorem TrC.sc : ∀ {e e' : List Cl}, TrC K F e e' → SCC K e → SCC K e'
  | _, _, .nil, _ => by simp [SCC]
  | _, _, .cons h1 h2, hw => by rw [SCC] at hw ⊢; exact ⟨h1.sc hw.1, h2.sc hw.2⟩

end

/-! ### The first pass -/

theorem tr_letExpr (hG : ∀ j, F (.gen j)) (k : Nat) {bs bs' : List Bd} {es es' : List E} (h1 : TrB K F bs bs') (h2 : TrL K F es es') :
    Tr K F (.letv bs es) (letExpr k bs' es') := by
  cases h1 with
  | nil => exact .let0 h2
  | cons h h' =>
    cases h' with
    | nil => exact .let1 hG h h2
    | cons h'' h''' => exact .let2 k hG (.cons h (.cons h'' h''')) h2

theorem tr_letrecExpr (hG : ∀ j, F (.gen j)) (k : Nat) {bs bs' : List Bd} {es es' : List E} (h1 : TrB K F bs bs') (h2 : TrL K F es es') (hne : es ≠ []) :
    Tr K F (.letrecv bs es) (letrecExpr k bs' es') := by
  unfold letrecExpr
  cases h1 with
  | nil => exact .letrec0 h2
  | @cons xs _ _ _ _ h h' =>
    have hb := TrB.cons (xs := xs) h h'
    rw [if_neg (by simp), hb.ids]
    exact .letrec1 k hG hb h2 hne

theorem tr_clamExpr {cs cs' : List Cl} (h : TrC K F cs cs') : Tr K F (.clam cs) (clamExpr cs') := by
  cases h with
  | nil => exact .clam .nil
  | cons h h' =>
    cases h' with
    | nil => exact .clam1 h
    | cons h'' h''' => exact .clam (.cons h (.cons h'' h'''))

mutual

theorem L0_tr (hG : ∀ j, F (.gen j)) : ∀ (e : E) (k : Nat), Wf K F e → Tr K F e (L0 k e).1
  | .var _, k, _ => by rw [L0]; exact .var _
  | .lit _, k, _ => by rw [L0]; exact .lit _
  | .quote _, k, _ => by rw [L0]; exact .quote _
  | .quoteSyntax _, k, _ => by rw [L0]; exact .quoteSyntax _
  | .unbound, k, _ => by rw [L0]; exact .unbound
  | .define _ e, k, h => by rw [Wf] at h; rw [L0]; exact .define (L0_tr hG e k h.2)
  | .set _ e, k, h => by rw [Wf] at h; rw [L0]; exact .set (L0_tr hG e k h.2.2)
  | .ite c t e, k, h => by rw [Wf] at h; rw [L0]; exact .ite (L0_tr hG c _ h.1) (L0_tr hG t _ h.2.1) (L0_tr hG e _ h.2.2)
  | .letv bs es, k, h => by rw [Wf] at h; rw [L0]; exact tr_letExpr hG k (L0B_tr hG bs _ h.2.2.1) (L0s_tr hG es _ h.2.2.2)
  | .letrecv bs es, k, h => by rw [Wf] at h; rw [L0]; exact tr_letrecExpr hG k (L0B_tr hG bs _ h.2.2.1) (L0s_tr hG es _ h.2.2.2) h.2.1
  | .lam f es, k, h => by rw [Wf] at h; rw [L0]; exact .lam (L0s_tr hG es k h.2)
  | .clam cs, k, h => by rw [Wf] at h; rw [L0]; exact tr_clamExpr (L0C_tr hG cs k h)
  | .begin es, k, h => by rw [Wf] at h; rw [L0]; exact .begin (L0s_tr hG es k h)
  | .app f es, k, h => by rw [Wf] at h; rw [L0]; exact .app (L0_tr hG f _ h.1) (L0s_tr hG es _ h.2)
  | .mvcall e c, k, h => by rw [Wf] at h; rw [L0]; exact .mvcall (L0_tr hG e _ h.1) (L0_tr hG c _ h.2)
  | .mvlet e xs b, k, h => by rw [Wf] at h; rw [L0]; exact .mvlet (L0_tr hG e _ h.2.1) (L0_tr hG b _ h.2.2)
  | .mvvals es, k, h => by rw [Wf] at h; rw [L0]; exact .mvvals (L0s_tr hG es k h)

theorem L0s_tr (hG : ∀ j, F (.gen j)) : ∀ (es : List E) (k : Nat), WfL K F es → TrL K F es (L0s k es).1
  | [], k, _ => by rw [L0s]; exact .nil
  | e :: es, k, h => by rw [WfL] at h; rw [L0s]; exact .cons (L0_tr hG e k h.1) (L0s_tr hG es _ h.2)

theorem L0B_tr (hG : ∀ j, F (.gen j)) : ∀ (bs : List Bd) (k : Nat), WfB K F bs → TrB K F bs (L0B k bs).1
  | [], k, _ => by rw [L0B]; exact .nil
  | .mk _ e :: bs, k, h => by rw [WfB] at h; rw [L0B]; exact .cons (L0_tr hG e k h.1) (L0B_tr hG bs _ h.2)

theorem L0C_tr (hG : ∀ j, F (.gen j)) : ∀ (cs : List Cl) (k : Nat), WfC K F cs → TrC K F cs (L0C k cs).1
  | [], k, _ => by rw [L0C]; exact .nil
  | .mk _ es :: cs, k, h => by rw [WfC] at h; rw [L0C]; exact .cons (L0s_tr hG es k h.2.1) (L0C_tr hG cs _ h.2.2)

end

/-! ### The third pass -/

theorem bodyExpr_ok {es : List E} {b : E} (h : bodyExpr es = .ok b) : es ≠ [] ∧ b = asExpr es := by
  match es, h with
  | [_], h => cases h; exact ⟨by simp, rfl⟩
  | _ :: _ :: _, h => cases h; exact ⟨by simp, rfl⟩

theorem tr_l2App {xs : List Sym} {body body' args args' : List E} {rb ra : Res (List E)} {e : E} (h : l2App xs rb ra = .ok e) (hb : rb = .ok body') (ha : ra = .ok args')
    (h1 : TrL K F body body') (h2 : TrL K F args args') : Tr K F (.app (.lam (fixed xs) body) args) e := by
  subst hb ha
  simp only [l2App, Res.ok_bind, Res.bind_eq_ok] at h
  obtain ⟨b, hb, h⟩ := h
  obtain ⟨_, rfl⟩ := bodyExpr_ok hb
  cases h2 with
  | nil => cases h; exact .app0 h1
  | cons g g' =>
    cases g' with
    | nil => cases h; exact .app1 g h1
    | cons g'' g''' => cases h; exact .app2 (.cons g (.cons g'' g''')) h1

mutual

theorem L2_tr : ∀ (e : E) {e' : E}, L2 e = .ok e' → Tr K F e e'
  | .var _, e', h => by rw [L2] at h; cases h; exact .var _
  | .lit _, e', h => by rw [L2] at h; cases h; exact .lit _
  | .quote _, e', h => by rw [L2] at h; cases h; exact .quote _
  | .quoteSyntax _, e', h => by rw [L2] at h; cases h; exact .quoteSyntax _
  | .unbound, e', h => by rw [L2] at h; cases h; exact .unbound
  | .define _ e, e', h => by
    rw [L2] at h; simp only [Res.bind_eq_ok] at h
    obtain ⟨a, h1, h⟩ := h; cases h; exact .define (L2_tr e h1)
  | .set _ e, e', h => by
    rw [L2] at h; simp only [Res.bind_eq_ok] at h
    obtain ⟨a, h1, h⟩ := h; cases h; exact .set (L2_tr e h1)
  | .ite c t e, e', h => by
    rw [L2] at h; simp only [Res.bind_eq_ok] at h
    obtain ⟨a, h1, b, h2, d, h3, h⟩ := h; cases h; exact .ite (L2_tr c h1) (L2_tr t h2) (L2_tr e h3)
  | .letv _ _, e', h => by simp [L2] at h
  | .letrecv _ _, e', h => by simp [L2] at h
  | .lam f es, e', h => by
    rw [L2] at h; simp only [Res.bind_eq_ok] at h
    obtain ⟨a, h1, h⟩ := h; cases h; exact .lam (L2s_tr es h1)
  | .clam cs, e', h => by
    rw [L2] at h; simp only [Res.bind_eq_ok] at h
    obtain ⟨a, h1, h⟩ := h; cases h; exact .clam (L2C_tr cs h1)
  | .begin es, e', h => by
    rw [L2] at h; simp only [Res.bind_eq_ok] at h
    obtain ⟨a, h1, h⟩ := h; cases h; exact .begin (L2s_tr es h1)
  | .mvcall e c, e', h => by
    rw [L2] at h; simp only [Res.bind_eq_ok] at h
    obtain ⟨a, h1, b, h2, h⟩ := h; cases h; exact .mvcall (L2_tr e h1) (L2_tr c h2)
  | .mvlet e xs c, e', h => by
    rw [L2] at h; simp only [Res.bind_eq_ok] at h
    obtain ⟨a, h1, b, h2, h⟩ := h; cases h; exact .mvlet (L2_tr e h1) (L2_tr c h2)
  | .mvvals es, e', h => by
    rw [L2] at h; simp only [Res.bind_eq_ok] at h
    obtain ⟨a, h1, h⟩ := h; cases h; exact .mvvals (L2s_tr es h1)
  | .app f es, e', h => by
    cases f with
    | lam f body =>
      rw [L2] at h
      obtain ⟨req, rest⟩ := f
      cases rest with
      | none =>
        simp only [Option.isNone_none, if_true] at h
        have h' := h
        simp only [l2App, Res.bind_eq_ok] at h
        obtain ⟨a, h1, b, h2, _⟩ := h
        exact tr_l2App h' h2 h1 (L2s_tr body h2) (L2s_tr es h1)
      | some r =>
        simp only [Option.isNone_some, Bool.false_eq_true, if_false, Res.bind_eq_ok] at h
        obtain ⟨a, h1, b, h2, h⟩ := h; cases h
        exact .app (.lam (L2s_tr body h1)) (L2s_tr es h2)
    | _ =>
      rw [L2] at h
      · simp only [Res.bind_eq_ok] at h
        obtain ⟨a, h1, b, h2, h⟩ := h; cases h; exact .app (L2_tr _ h1) (L2s_tr es h2)
      · intros; simp_all

theorem L2s_tr : ∀ (es : List E) {es' : List E}, L2s es = .ok es' → TrL K F es es'
  | [], _, h => by rw [L2s] at h; cases h; exact .nil
  | e :: es, _, h => by
    rw [L2s] at h; simp only [Res.bind_eq_ok] at h
    obtain ⟨a, h1, b, h2, h⟩ := h; cases h; exact .cons (L2_tr e h1) (L2s_tr es h2)

theorem L2C_tr : ∀ (cs : List Cl) {cs' : List Cl}, L2C cs = .ok cs' → TrC K F cs cs'
  | [], _, h => by rw [L2C] at h; cases h; exact .nil
  | .mk _ es :: cs, _, h => by
    rw [L2C] at h; simp only [Res.bind_eq_ok] at h
    obtain ⟨a, h1, b, h2, h⟩ := h; cases h; exact .cons (L2s_tr es h1) (L2C_tr cs h2)

end

end

end Minim.Jit

import Verif.Core

set_option autoImplicit false

/-!
# Core S-expressions and expression trees

The passes and the compiler are modelled on trees (`E`), the checker on S-expressions (`X`).  Here: the S-expressions of the core grammar are exactly the encodings of source trees, and
each has only one.
-/

namespace Minim.Core

open Minim.Sx Minim.Chk

mutual

/-- Specification: trees of source expressions: bodies and sequences are not empty, operators are no keywords, no forms made by the optimiser. -/
def Src : E → Prop
  | .var _ | .lit _ | .quote _ | .quoteSyntax _ => True
  | .unbound => False
  | .define _ e => Src e
  | .set _ e => Src e
  | .ite c t e => Src c ∧ Src t ∧ Src e
  | .letv bs es => es ≠ [] ∧ SrcB bs ∧ SrcL es
  | .letrecv bs es => es ≠ [] ∧ SrcB bs ∧ SrcL es
  | .lam _ es => es ≠ [] ∧ SrcL es
  | .clam cs => SrcC cs
  | .begin es => es ≠ [] ∧ SrcL es
  | .app f es => (∀ s, f = .var s → isKw s = false) ∧ Src f ∧ SrcL es
  | .mvcall _ _ => False
  | .mvlet _ _ _ => False
  | .mvvals _ => False

/-- Specification: the same for lists. -/
def SrcL : List E → Prop
  | [] => True
  | e :: es => Src e ∧ SrcL es

/-- Specification: the same for bindings. -/
def SrcB : List Bd → Prop
  | [] => True
  | .mk _ e :: bs => Src e ∧ SrcB bs

/-- Specification: the same for clauses. -/
def SrcC : List Cl → Prop
  | [] => True
  | .mk _ es :: cs => (es ≠ [] ∧ SrcL es) ∧ SrcC cs

end

/-! ## Every core S-expression has a tree -/

theorem trees {body : List X} (h : ∀ x ∈ body, ∃ e, Src e ∧ enc e = x) : ∃ es, SrcL es ∧ encs es = ofList body ∧ (body ≠ [] → es ≠ []) := by
  induction body with
  | nil => exact ⟨[], by rw [SrcL]; trivial, rfl, fun h => absurd rfl h⟩
  | cons x xs ih =>
    obtain ⟨e, h1, h2⟩ := h x (by simp)
    obtain ⟨es, h3, h4, _⟩ := ih fun y hy => h y (by simp [hy])
    exact ⟨e :: es, by rw [SrcL]; exact ⟨h1, h3⟩, by rw [encs, h2, h4]; rfl, by simp⟩

theorem treesB {bs : List (List Sym × X)} (h : ∀ b ∈ bs, ∃ e, Src e ∧ enc e = b.2) : ∃ ts, SrcB ts ∧ encBds ts = ofList (bs.map binding) := by
  induction bs with
  | nil => exact ⟨[], by rw [SrcB]; trivial, rfl⟩
  | cons b bs ih =>
    obtain ⟨e, h1, h2⟩ := h b (by simp)
    obtain ⟨ts, h3, h4⟩ := ih fun y hy => h y (by simp [hy])
    refine ⟨.mk b.1 e :: ts, by rw [SrcB]; exact ⟨h1, h3⟩, ?_⟩
    rw [encBds, encBd, h2, h4]
    rfl

theorem treesC {cs : List ((List Sym × Option Sym) × List X)} (hne : ∀ c ∈ cs, c.2 ≠ []) (h : ∀ c ∈ cs, ∀ x ∈ c.2, ∃ e, Src e ∧ enc e = x) :
    ∃ ts, SrcC ts ∧ encCls ts = ofList (cs.map clause) := by
  induction cs with
  | nil => exact ⟨[], by rw [SrcC]; trivial, rfl⟩
  | cons c cs ih =>
    obtain ⟨es, h1, h2, h3⟩ := trees (h c (by simp))
    obtain ⟨ts, h4, h5⟩ := ih (fun y hy => hne y (by simp [hy])) fun y hy => h y (by simp [hy])
    refine ⟨.mk ⟨c.1.1, c.1.2⟩ es :: ts, by rw [SrcC]; exact ⟨⟨h3 (hne c (by simp)), h1⟩, h4⟩, ?_⟩
    rw [encCls, encCl, h2, h5]
    rfl

theorem tree_of_core {x : X} (h : Core x) : ∃ e, Src e ∧ enc e = x := by
  induction h with
  | var s => exact ⟨.var s, by simp [Src], rfl⟩
  | lit l => exact ⟨.lit l, by simp [Src], rfl⟩
  | quote d => exact ⟨.quote d, by simp [Src], rfl⟩
  | quoteSyntax d => exact ⟨.quoteSyntax d, by simp [Src], rfl⟩
  | set s x _ ih =>
    obtain ⟨e, h1, rfl⟩ := ih
    exact ⟨.set s e, by rw [Src]; exact h1, by rw [enc]⟩
  | ite a b c _ _ _ i1 i2 i3 =>
    obtain ⟨a, h1, rfl⟩ := i1
    obtain ⟨b, h2, rfl⟩ := i2
    obtain ⟨c, h3, rfl⟩ := i3
    exact ⟨.ite a b c, by rw [Src]; exact ⟨h1, h2, h3⟩, by rw [enc]⟩
  | define xs x _ ih =>
    obtain ⟨e, h1, rfl⟩ := ih
    exact ⟨.define xs e, by rw [Src]; exact h1, by rw [enc]⟩
  | letv k bs body hk _ hne _ i1 i2 =>
    obtain ⟨ts, h1, h2⟩ := treesB i1
    obtain ⟨es, h3, h4, h5⟩ := trees i2
    rcases hk with rfl | rfl
    · exact ⟨.letv ts es, by rw [Src]; exact ⟨h5 hne, h1, h3⟩, by rw [enc, h2, h4]⟩
    · exact ⟨.letrecv ts es, by rw [Src]; exact ⟨h5 hne, h1, h3⟩, by rw [enc, h2, h4]⟩
  | lam xs r body hne _ ih =>
    obtain ⟨es, h3, h4, h5⟩ := trees ih
    exact ⟨.lam ⟨xs, r⟩ es, by rw [Src]; exact ⟨h5 hne, h3⟩, by rw [enc, h4]⟩
  | clam cs hne _ ih =>
    obtain ⟨ts, h1, h2⟩ := treesC hne ih
    exact ⟨.clam ts, by rw [Src]; exact h1, by rw [enc, h2]⟩
  | begin body hne _ ih =>
    obtain ⟨es, h3, h4, h5⟩ := trees ih
    exact ⟨.begin es, by rw [Src]; exact ⟨h5 hne, h3⟩, by rw [enc, h4]⟩
  | app f as hf _ _ i1 i2 =>
    obtain ⟨e, h1, rfl⟩ := i1 rfl
    obtain ⟨es, h3, h4, h5⟩ := trees i2
    refine ⟨.app e es, ?_, by rw [enc, h4]⟩
    rw [Src]
    exact ⟨fun s hs => hf s (by rw [hs]; rfl), h1, h3⟩

/-! ## Every source tree stands for a core S-expression -/

theorem notKw_of {e : E} (h : ∀ s, e = .var s → isKw s = false) : NotKw (enc e) := by
  intro s hs
  cases e <;> simp [enc, ofList] at hs
  subst hs
  exact h _ rfl

mutual

theorem core_of_src : ∀ e : E, Src e → Core (enc e)
  | .var s, _ => .var s
  | .lit l, _ => .lit l
  | .quote d, _ => .quote d
  | .quoteSyntax d, _ => .quoteSyntax d
  | .unbound, h => by rw [Src] at h; exact h.elim
  | .define xs e, h => by rw [Src] at h; rw [enc]; exact .define xs _ (core_of_src e h)
  | .set s e, h => by rw [Src] at h; rw [enc]; exact .set s _ (core_of_src e h)
  | .ite a b c, h => by rw [Src] at h; rw [enc]; exact .ite _ _ _ (core_of_src a h.1) (core_of_src b h.2.1) (core_of_src c h.2.2)
  | .letv bs es, h => by
    rw [Src] at h
    obtain ⟨body, h1, h2, h3⟩ := core_of_srcL es h.2.2
    obtain ⟨bs', h4, h5⟩ := core_of_srcB bs h.2.1
    rw [enc, h1, h4]
    exact .letv _ bs' body (.inl rfl) h5 (h3 h.1) h2
  | .letrecv bs es, h => by
    rw [Src] at h
    obtain ⟨body, h1, h2, h3⟩ := core_of_srcL es h.2.2
    obtain ⟨bs', h4, h5⟩ := core_of_srcB bs h.2.1
    rw [enc, h1, h4]
    exact .letv _ bs' body (.inr rfl) h5 (h3 h.1) h2
  | .lam f es, h => by
    rw [Src] at h
    obtain ⟨body, h1, h2, h3⟩ := core_of_srcL es h.2
    rw [enc, h1]
    exact .lam _ _ body (h3 h.1) h2
  | .clam cs, h => by
    rw [Src] at h
    obtain ⟨cs', h1, h2, h3⟩ := core_of_srcC cs h
    rw [enc, h1]
    exact .clam cs' h2 h3
  | .begin es, h => by
    rw [Src] at h
    obtain ⟨body, h1, h2, h3⟩ := core_of_srcL es h.2
    rw [enc, h1]
    exact .begin body (h3 h.1) h2
  | .app f es, h => by
    rw [Src] at h
    obtain ⟨body, h1, h2, h3⟩ := core_of_srcL es h.2.2
    rw [enc, h1]
    exact .app _ body (notKw_of h.1) (fun _ => core_of_src f h.2.1) h2
  | .mvcall _ _, h => by rw [Src] at h; exact h.elim
  | .mvlet _ _ _, h => by rw [Src] at h; exact h.elim
  | .mvvals _, h => by rw [Src] at h; exact h.elim

theorem core_of_srcL : ∀ es : List E, SrcL es → ∃ body, encs es = ofList body ∧ (∀ x ∈ body, Core x) ∧ (es ≠ [] → body ≠ [])
  | [], _ => ⟨[], rfl, by simp, fun h => absurd rfl h⟩
  | e :: es, h => by
    rw [SrcL] at h
    obtain ⟨body, h1, h2, _⟩ := core_of_srcL es h.2
    refine ⟨enc e :: body, by rw [encs, h1]; rfl, ?_, by simp⟩
    intro x hx
    rcases List.mem_cons.1 hx with rfl | hx
    · exact core_of_src e h.1
    · exact h2 x hx

theorem core_of_srcB : ∀ bs : List Bd, SrcB bs → ∃ bs' : List (List Sym × X), encBds bs = ofList (bs'.map binding) ∧ ∀ b ∈ bs', Core b.2
  | [], _ => ⟨[], rfl, by simp⟩
  | .mk xs e :: bs, h => by
    rw [SrcB] at h
    obtain ⟨bs', h1, h2⟩ := core_of_srcB bs h.2
    refine ⟨(xs, enc e) :: bs', by rw [encBds, h1]; rfl, ?_⟩
    intro x hx
    rcases List.mem_cons.1 hx with rfl | hx
    · exact core_of_src e h.1
    · exact h2 x hx

theorem core_of_srcC : ∀ cs : List Cl, SrcC cs → ∃ cs' : List ((List Sym × Option Sym) × List X), encCls cs = ofList (cs'.map clause) ∧ (∀ c ∈ cs', c.2 ≠ []) ∧ ∀ c ∈ cs', ∀ x ∈ c.2, Core x
  | [], _ => ⟨[], rfl, by simp, by simp⟩
  | .mk f es :: cs, h => by
    rw [SrcC] at h
    obtain ⟨cs', h1, h2, h3⟩ := core_of_srcC cs h.2
    obtain ⟨body, h4, h5, h6⟩ := core_of_srcL es h.1.2
    refine ⟨((f.req, f.rest), body) :: cs', by rw [encCls, encCl, h1, h4]; rfl, ?_, ?_⟩
    · intro x hx
      rcases List.mem_cons.1 hx with rfl | hx
      · exact h6 h.1.1
      · exact h2 x hx
    · intro x hx
      rcases List.mem_cons.1 hx with rfl | hx
      · exact h5
      · exact h3 x hx

end

/-! ## Only one tree for each -/

theorem ids_inj {xs ys : List Sym} (h : ids xs = ids ys) : xs = ys := by
  induction xs generalizing ys with
  | nil => cases ys with | nil => rfl | cons => simp [ids, ofList] at h
  | cons x xs ih =>
    cases ys with
    | nil => simp [ids, ofList] at h
    | cons y ys =>
      simp only [ids, List.map_cons, ofList, X.cons.injEq, X.sym.injEq] at h
      rw [h.1, ih h.2]

theorem formals_inj {xs ys : List Sym} {r s : Option Sym} (h : formals xs r = formals ys s) : xs = ys ∧ r = s := by
  induction xs generalizing ys with
  | nil => cases ys <;> cases r <;> cases s <;> simp_all [formals]
  | cons x xs ih =>
    cases ys with
    | nil => cases s <;> simp [formals] at h
    | cons y ys =>
      simp only [formals, X.cons.injEq, X.sym.injEq] at h
      obtain ⟨h1, h2⟩ := ih h.2
      exact ⟨by rw [h.1, h1], h2⟩

/-- An application does not start with a keyword. -/
theorem app_head {f : E} {k : Sym} (h : ∀ s, f = .var s → isKw s = false) (hk : isKw k = true) : enc f ≠ .sym k := by
  intro he
  have := notKw_of h k he
  rw [hk] at this
  cases this

mutual

theorem enc_inj : ∀ e e' : E, Src e → Src e' → enc e = enc e' → e = e'
  | .var s, e', h, h', he => by
    cases e' <;> simp [enc, ofList] at he
    rw [he]
  | .lit l, e', h, h', he => by
    cases e' <;> simp [enc, ofList] at he
    rw [he]
  | .quote d, e', h, h', he => by
    cases e' <;> simp [enc, ofList] at he
    · rw [he]
    · rw [Src] at h'; exact absurd he.1.symm (app_head h'.1 rfl)
  | .quoteSyntax d, e', h, h', he => by
    cases e' <;> simp [enc, ofList] at he
    · rw [he]
    · rw [Src] at h'; exact absurd he.1.symm (app_head h'.1 rfl)
  | .unbound, _, h, _, _ => by rw [Src] at h; exact h.elim
  | .define xs e, e', h, h', he => by
    cases e' <;> simp [enc, ofList] at he
    · rw [Src] at h h'; rw [ids_inj he.1, enc_inj e _ h h' he.2]
    · rw [Src] at h'; exact absurd he.1.symm (app_head h'.1 rfl)
  | .set x e, e', h, h', he => by
    cases e' <;> simp [enc, ofList] at he
    · rw [Src] at h h'; rw [he.1, enc_inj e _ h h' he.2]
    · rw [Src] at h'; exact absurd he.1.symm (app_head h'.1 rfl)
  | .ite a b c, e', h, h', he => by
    cases e' <;> simp [enc, ofList] at he
    · rw [Src] at h h'; rw [enc_inj a _ h.1 h'.1 he.1, enc_inj b _ h.2.1 h'.2.1 he.2.1, enc_inj c _ h.2.2 h'.2.2 he.2.2]
    · rw [Src] at h'; exact absurd he.1.symm (app_head h'.1 rfl)
  | .letv bs es, e', h, h', he => by
    cases e' <;> simp [enc, ofList] at he
    · rw [Src] at h h'; rw [encB_inj bs _ h.2.1 h'.2.1 he.1, encs_inj es _ h.2.2 h'.2.2 he.2]
    · rw [Src] at h'; exact absurd he.1.symm (app_head h'.1 rfl)
  | .letrecv bs es, e', h, h', he => by
    cases e' <;> simp [enc, ofList] at he
    · rw [Src] at h h'; rw [encB_inj bs _ h.2.1 h'.2.1 he.1, encs_inj es _ h.2.2 h'.2.2 he.2]
    · rw [Src] at h'; exact absurd he.1.symm (app_head h'.1 rfl)
  | .lam f es, e', h, h', he => by
    cases e' <;> simp [enc, ofList] at he
    · rw [Src] at h h'
      obtain ⟨h1, h2⟩ := formals_inj he.1
      rename_i g _
      obtain ⟨_, _⟩ := f
      obtain ⟨_, _⟩ := g
      simp only at h1 h2
      rw [encs_inj es _ h.2 h'.2 he.2, h1, h2]
    · rw [Src] at h'; exact absurd he.1.symm (app_head h'.1 rfl)
  | .clam cs, e', h, h', he => by
    cases e' <;> simp [enc, ofList] at he
    · rw [Src] at h h'; rw [encC_inj cs _ h h' he]
    · rw [Src] at h'; exact absurd he.1.symm (app_head h'.1 rfl)
  | .begin es, e', h, h', he => by
    cases e' <;> simp [enc, ofList] at he
    · rw [Src] at h h'; rw [encs_inj es _ h.2 h'.2 he]
    · rw [Src] at h'; exact absurd he.1.symm (app_head h'.1 rfl)
  | .app f es, e', h, h', he => by
    rw [Src] at h
    cases e' with
    | app g fs => rw [Src] at h'; simp only [enc, X.cons.injEq] at he; rw [enc_inj f _ h.2.1 h'.2.1 he.1, encs_inj es _ h.2.2 h'.2.2 he.2]
    | var | lit => simp [enc] at he
    | unbound | mvcall | mvlet | mvvals => rw [Src] at h'; exact h'.elim
    | _ => simp only [enc, ofList, X.cons.injEq] at he; exact absurd he.1 (app_head h.1 rfl)
  | .mvcall _ _, _, h, _, _ => by rw [Src] at h; exact h.elim
  | .mvlet _ _ _, _, h, _, _ => by rw [Src] at h; exact h.elim
  | .mvvals _, _, h, _, _ => by rw [Src] at h; exact h.elim

theorem encs_inj : ∀ es es' : List E, SrcL es → SrcL es' → encs es = encs es' → es = es'
  | [], [], _, _, _ => rfl
  | [], _ :: _, _, _, he => by simp [encs] at he
  | _ :: _, [], _, _, he => by simp [encs] at he
  | e :: es, e' :: es', h, h', he => by
    rw [SrcL] at h h'
    simp only [encs, X.cons.injEq] at he
    rw [enc_inj e e' h.1 h'.1 he.1, encs_inj es es' h.2 h'.2 he.2]

theorem encB_inj : ∀ bs bs' : List Bd, SrcB bs → SrcB bs' → encBds bs = encBds bs' → bs = bs'
  | [], [], _, _, _ => rfl
  | [], _ :: _, _, _, he => by simp [encBds] at he
  | _ :: _, [], _, _, he => by simp [encBds] at he
  | .mk xs e :: es, .mk ys e' :: es', h, h', he => by
    rw [SrcB] at h h'
    simp only [encBds, encBd, ofList, X.cons.injEq] at he
    rw [ids_inj he.1.1, enc_inj e e' h.1 h'.1 he.1.2.1, encB_inj es es' h.2 h'.2 he.2]

theorem encC_inj : ∀ cs cs' : List Cl, SrcC cs → SrcC cs' → encCls cs = encCls cs' → cs = cs'
  | [], [], _, _, _ => rfl
  | [], _ :: _, _, _, he => by simp [encCls] at he
  | _ :: _, [], _, _, he => by simp [encCls] at he
  | .mk f es :: cs, .mk g es' :: cs', h, h', he => by
    rw [SrcC] at h h'
    simp only [encCls, encCl, X.cons.injEq] at he
    obtain ⟨h1, h2⟩ := formals_inj he.1.1
    obtain ⟨_, _⟩ := f
    obtain ⟨_, _⟩ := g
    simp only at h1 h2
    rw [encs_inj es es' h.1.2 h'.1.2 he.1.2, encC_inj cs cs' h.2 h'.2 he.2, h1, h2]

end

/-- C45: the S-expressions of the core grammar are exactly those of the source trees, and each stands for one tree. -/
theorem C45_trees (x : X) : (Core x ↔ ∃ e, Src e ∧ enc e = x) ∧ ∀ e e', Src e → Src e' → enc e = x → enc e' = x → e = e' := by
  refine ⟨⟨tree_of_core, ?_⟩, fun e e' h h' he he' => enc_inj e e' h h' (he.trans he'.symm)⟩
  rintro ⟨e, h, rfl⟩
  exact core_of_src e h

/-- `(let-values ([(x) (f 1)]) (lambda (a . r) (x r)))`. -/
example : Src (.letv [.mk [.user 1] (.app (.var (.user 2)) [.lit (.const 1)])] [.lam ⟨[.user 3], some (.user 4)⟩ [.app (.var (.user 1)) [.var (.user 4)]]]) := by
  simp [Src, SrcB, SrcL, isKw]

end Minim.Core

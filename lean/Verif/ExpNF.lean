import Verif.ExpRules

set_option autoImplicit false

/-!
# Expansions are left alone

The contents of a `begin` in a body are expanded twice; expanding what is expanded changes nothing.
-/

namespace Minim.Exp

open Minim.Sx Minim.Core Minim.Jit

mutual

/-- expanded expressions over the names `V` -/
def NF (V : Sym → Prop) : E → Prop
  | .var x => V x
  | .lit _ => True
  | .quote _ => True
  | .quoteSyntax _ => True
  | .set _ e => NF V e
  | .ite c t e => NF V c ∧ NF V t ∧ NF V e
  | .lam _ body => body ≠ [] ∧ (∀ e ∈ body, isBegin e = false) ∧ NFl V body
  | .clam cs => NFcls V cs
  | .begin es => es ≠ [] ∧ NFl V es
  | .app f as => NF V f ∧ NFl V as
  | .letv bs body => (bdsIds bs).Nodup ∧ NFbds V bs ∧ body ≠ [] ∧ (∀ e ∈ body, isBegin e = false) ∧ NFl V body
  | .letrecv bs body => (bdsIds bs).Nodup ∧ NFbds V bs ∧ body ≠ [] ∧ (∀ e ∈ body, isBegin e = false) ∧ NFl V body
  | .unbound => False
  | .define _ _ => False
  | .mvcall _ _ => False
  | .mvlet _ _ _ => False
  | .mvvals _ => False

def NFl (V : Sym → Prop) : List E → Prop
  | [] => True
  | e :: es => NF V e ∧ NFl V es

def NFbd (V : Sym → Prop) : Bd → Prop
  | .mk _ e => NF V e

def NFbds (V : Sym → Prop) : List Bd → Prop
  | [] => True
  | b :: bs => NFbd V b ∧ NFbds V bs

def NFcl (V : Sym → Prop) : Cl → Prop
  | .mk _ body => body ≠ [] ∧ (∀ e ∈ body, isBegin e = false) ∧ NFl V body

def NFcls (V : Sym → Prop) : List Cl → Prop
  | [] => True
  | c :: cs => NFcl V c ∧ NFcls V cs

end

/-- a body of expanded expressions -/
def NFb (V : Sym → Prop) (body : List E) : Prop := body ≠ [] ∧ (∀ e ∈ body, isBegin e = false) ∧ NFl V body

theorem nfl_iff {V : Sym → Prop} : ∀ {es : List E}, NFl V es ↔ ∀ e ∈ es, NF V e
  | [] => by simp [NFl]
  | e :: es => by simp [NFl, nfl_iff (es := es)]

theorem nfbds_iff {V : Sym → Prop} : ∀ {bs : List Bd}, NFbds V bs ↔ ∀ b ∈ bs, NFbd V b
  | [] => by simp [NFbds]
  | e :: es => by simp [NFbds, nfbds_iff (bs := es)]

theorem bds2_of : ∀ bs : List Bd, encBds bs = bds2 (bs.map Bd.ids) (bs.map fun b => enc b.rhs)
  | [] => by simp [encBds, bds2]
  | .mk xs e :: bs => by simp [encBds, bds2, bds2_of bs, encBd, Bd.ids, Bd.rhs]

theorem mkBds_of : ∀ bs : List Bd, mkBds (bs.map Bd.ids) (bs.map Bd.rhs) = bs
  | [] => by simp [mkBds]
  | .mk xs e :: bs => by simp [mkBds, mkBds_of bs, Bd.ids, Bd.rhs]

theorem bdsIds_flatten : ∀ bs : List Bd, bdsIds bs = (bs.map Bd.ids).flatten
  | [] => by simp [bdsIds]
  | b :: bs => by simp [bdsIds, bdsIds_flatten bs]

theorem clsX_of : ∀ cs : List Cl, encCls cs = clsX (cs.map Cl.fs) (cs.map fun c => c.body.map enc)
  | [] => by simp [encCls, clsX]
  | .mk f b :: cs => by simp [encCls, clsX, clsX_of cs, encCl, Cl.fs, Cl.body, encs_eq]

theorem mkCls_of : ∀ cs : List Cl, mkCls (cs.map Cl.fs) (cs.map Cl.body) = cs
  | [] => by simp [mkCls]
  | .mk f b :: cs => by simp [mkCls, mkCls_of cs, Cl.fs, Cl.body]

variable {ex : T → Res (List (T → Res T))} {xs : Xforms} {V : Sym → Prop}

/-- the names in expansions are no keywords -/
def NoKw (V : Sym → Prop) : Prop := ∀ x, V x → x ∉ keywords

/-- an expanded expression that is no `begin` looks like no special form of bodies -/
theorem nf_head (hV : NoKw V) {e : E} (h : NF V e) (hb : isBegin e = false) : ∀ s d, enc e = .cons (.sym s) d → s ≠ .begin ∧ s ≠ .defineValues ∧ s ≠ sDefineSyntaxes := by
  intro s d he
  cases e with
  | app f as =>
    rw [enc] at he
    injection he with h1 h2
    cases f <;> simp [enc, ofList] at h1
    subst h1
    rw [NF, NF] at h
    have := hV _ h.1
    simp only [keywords, List.mem_cons, not_or] at this
    exact ⟨this.2.2.2.2.2.2.2.2.2.1, this.1, this.2.2.2.2.2.2.2.2.2.2.2.1⟩
  | begin es => cases hb
  | unbound => rw [NF] at h; exact h.elim
  | define => rw [NF] at h; exact h.elim
  | mvcall => rw [NF] at h; exact h.elim
  | mvlet => rw [NF] at h; exact h.elim
  | mvvals => rw [NF] at h; exact h.elim
  | var => simp [enc] at he
  | lit => simp [enc] at he
  | _ =>
    rw [enc] at he
    injection he with h1 h2
    injection h1 with h1
    subst h1
    simp [sDefineSyntaxes]

theorem nf_notDef {e : E} (h : NF V e) : isDef e = false := by
  cases e <;> first | rfl | (rw [NF] at h; exact h.elim)

theorem asm_eq : ∀ {l : List E}, (∀ e ∈ l, isDef e = false) → asm l = l
  | [], _ => rfl
  | e :: l, h => by
    rw [asm, if_neg (by simp [h e (List.mem_cons_self ..)]), asm_eq fun e he => h e (List.mem_cons_of_mem _ he)]

theorem endsE_of : ∀ {l : List E}, l ≠ [] → (∀ e ∈ l, isDef e = false) → endsE l = true
  | [], h, _ => (h rfl).elim
  | [e], _, h => by simp [endsE, h e]
  | _ :: e :: l, _, h => by rw [endsE]; exact endsE_of (by simp) fun e he => h e (List.mem_cons_of_mem _ he)

/-- a body of expanded expressions is left alone, given that the expressions are -/
theorem XB.nf (hV : NoKw V) {b : List E} (h0 : b ≠ []) (h1 : ∀ e ∈ b, isBegin e = false) (h2 : NFl V b) (h : List.Forall₂ (XE ex xs false) (b.map enc) b) : XB ex xs (b.map enc) b := by
  have hd : ∀ e ∈ b, isDef e = false := fun e he => nf_notDef (nfl_iff.1 h2 e he)
  have : Runs ex xs (b.map enc) b := by
    clear h0 hd
    induction b with
    | nil => exact .nil
    | cons e b ih =>
      rw [List.map_cons] at h ⊢
      cases h with
      | cons ha hb =>
        rw [NFl] at h2
        exact .one ha (h1 e (List.mem_cons_self ..)) (nf_notDef h2.1) (nf_head hV h2.1 (h1 e (List.mem_cons_self ..))) (ih (fun e he => h1 e (List.mem_cons_of_mem _ he)) h2.2 hb)
  have := XB.of this (endsE_of h0 hd)
  rwa [asm_eq hd] at this

mutual

theorem nf_expand (hV : NoKw V) (hx : ∀ x, V x → lookup x xs = none) : ∀ e, NF V e → XE ex xs false (enc e) e
  | .var x, h => by rw [NF] at h; rw [enc]; exact .var (hx x h)
  | .lit l, _ => by rw [enc]; exact .lit l
  | .quote d, _ => by rw [enc]; exact .quote d
  | .quoteSyntax d, _ => by rw [enc]; exact .quoteSyntax d
  | .set x e, h => by rw [NF] at h; rw [enc]; exact .set (nf_expand hV hx e h)
  | .ite c t e, h => by rw [NF] at h; rw [enc]; exact .ite (nf_expand hV hx c h.1) (nf_expand hV hx t h.2.1) (nf_expand hV hx e h.2.2)
  | .lam f body, h => by
    rw [NF] at h; rw [enc, encs_eq]
    exact .lam (by simpa using h.1) (.nf hV h.1 h.2.1 h.2.2 (nf_expands hV hx body h.2.2))
  | .clam cs, h => by
    rw [NF] at h; rw [enc, clsX_of]
    have h' := nf_cls hV hx cs h
    have := XE.clam (rb := false) (fs := cs.map Cl.fs) ?_ (by simp) h'
    · rwa [mkCls_of] at this
    · intro b hb
      obtain ⟨c, hc, rfl⟩ := List.mem_map.1 hb
      have : ∀ {cs : List Cl}, NFcls V cs → ∀ c ∈ cs, c.body ≠ [] := by
        intro cs h
        induction cs with
        | nil => simp
        | cons c cs ih =>
          rw [NFcls] at h
          obtain ⟨f, b⟩ := c
          rw [NFcl] at h
          intro c hc
          rcases List.mem_cons.1 hc with rfl | hc
          · exact h.1.1
          · exact ih h.2 c hc
      simpa using this h c hc
  | .begin [], h => by rw [NF] at h; exact (h.1 rfl).elim
  | .begin (e :: es), h => by
    rw [NF, NFl] at h; rw [enc, encs_eq]
    exact .beginF (.cons (nf_expand hV hx e h.2.1) (nf_expands hV hx es h.2.2))
  | .app f as, h => by
    rw [NF] at h; rw [enc, encs_eq]
    have h2 := nf_expands hV hx as h.2
    by_cases hf : ∃ s, f = .var s
    · obtain ⟨s, rfl⟩ := hf
      have hs : V s := by have := h.1; rwa [NF] at this
      rw [enc]
      exact .appId (hV s hs) (hx s hs) h2
    · refine .app ?_ (nf_expand hV hx f h.1) h2
      intro s e
      cases f <;> simp [enc, ofList] at e
      exact hf ⟨_, rfl⟩
  | .letv bs body, h => by
    rw [NF] at h; rw [enc, encs_eq, bds2_of]
    have := XE.letv (ex := ex) (xs := xs) (rb := false) (xss := bs.map Bd.ids) (by simp) (by simpa using h.2.2.1) (by rw [← bdsIds_flatten]; exact h.1) (nf_bds hV hx bs h.2.1)
      (.nf hV h.2.2.1 h.2.2.2.1 h.2.2.2.2 (nf_expands hV hx body h.2.2.2.2))
    rwa [mkBds_of] at this
  | .letrecv bs body, h => by
    rw [NF] at h; rw [enc, encs_eq, bds2_of]
    have := XE.letrecv (ex := ex) (xs := xs) (rb := false) (xss := bs.map Bd.ids) (by simp) (by simpa using h.2.2.1) (by rw [← bdsIds_flatten]; exact h.1) (nf_bds hV hx bs h.2.1)
      (.nf hV h.2.2.1 h.2.2.2.1 h.2.2.2.2 (nf_expands hV hx body h.2.2.2.2))
    rwa [mkBds_of] at this
  | .unbound, h => by rw [NF] at h; exact h.elim
  | .define .., h => by rw [NF] at h; exact h.elim
  | .mvcall .., h => by rw [NF] at h; exact h.elim
  | .mvlet .., h => by rw [NF] at h; exact h.elim
  | .mvvals _, h => by rw [NF] at h; exact h.elim

theorem nf_expands (hV : NoKw V) (hx : ∀ x, V x → lookup x xs = none) : ∀ es, NFl V es → List.Forall₂ (XE ex xs false) (es.map enc) es
  | [], _ => .nil
  | e :: es, h => by rw [NFl] at h; exact .cons (nf_expand hV hx e h.1) (nf_expands hV hx es h.2)

theorem nf_bd (hV : NoKw V) (hx : ∀ x, V x → lookup x xs = none) : ∀ b, NFbd V b → XE ex xs false (enc b.rhs) b.rhs
  | .mk _ e, h => by rw [NFbd] at h; exact nf_expand hV hx e h

theorem nf_bds (hV : NoKw V) (hx : ∀ x, V x → lookup x xs = none) : ∀ bs, NFbds V bs → List.Forall₂ (XE ex xs false) (bs.map fun b => enc b.rhs) (bs.map Bd.rhs)
  | [], _ => .nil
  | b :: bs, h => by rw [NFbds] at h; exact .cons (nf_bd hV hx b h.1) (nf_bds hV hx bs h.2)

theorem nf_cl (hV : NoKw V) (hx : ∀ x, V x → lookup x xs = none) : ∀ c, NFcl V c → XB ex xs (c.body.map enc) c.body
  | .mk _ b, h => by rw [NFcl] at h; exact .nf hV h.1 h.2.1 h.2.2 (nf_expands hV hx b h.2.2)

theorem nf_cls (hV : NoKw V) (hx : ∀ x, V x → lookup x xs = none) : ∀ cs, NFcls V cs → List.Forall₂ (XB ex xs) (cs.map fun c => c.body.map enc) (cs.map Cl.body)
  | [], _ => .nil
  | c :: cs, h => by rw [NFcls] at h; exact .cons (nf_cl hV hx c h.1) (nf_cls hV hx cs h.2)

end

/-- the contents of `begin` in a body -/
theorem runs_nf (hV : NoKw V) (hx : ∀ x, V x → lookup x xs = none) {es : List E} {ts : List X} {l : List E} (hn : NFl V es) (h : Runs ex xs ts l) : Runs ex xs (es.map enc ++ ts) (flats es ++ l) := by
  suffices ∀ n (es : List E), sizeOf es ≤ n → ∀ (ts : List X) (l : List E), NFl V es → Runs ex xs ts l → Runs ex xs (es.map enc ++ ts) (flats es ++ l) from this _ es (Nat.le_refl _) ts l hn h
  clear hn h es ts l
  intro n
  induction n with
  | zero => intro es h; cases es <;> simp at h
  | succ n ih =>
    intro es hs ts l hn h
    cases es with
    | nil => rw [flats]; exact h
    | cons e es =>
      rw [NFl] at hn
      rw [flats, List.map_cons, List.cons_append, List.append_assoc]
      rw [List.cons.sizeOf_spec] at hs
      by_cases hb : isBegin e = true
      · cases e with
        | begin es' =>
          have h1 := nf_expand (ex := ex) hV hx _ hn.1
          have h2 := hn.1
          rw [NF] at h2
          rw [E.begin.sizeOf_spec] at hs
          cases es' with
          | nil => exact (h2.1 rfl).elim
          | cons a as =>
            refine .bg h1 ?_
            rw [flat]
            exact ih (a :: as) (by omega) _ _ h2.2 (ih es (by omega) _ _ hn.2 h)
        | _ => cases hb
      · have hb : isBegin e = false := by simpa using hb
        rw [flat_eq hb]
        exact .one (nf_expand hV hx e hn.1) hb (nf_notDef hn.1) (nf_head hV hn.1 hb) (ih es (by omega) _ _ hn.2 h)

end Minim.Exp

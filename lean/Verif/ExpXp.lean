import Verif.ExpMono
import Verif.ExpSurf
import Mathlib.Data.List.Forall2

set_option autoImplicit false

/-!
# What the expander makes of expressions

`xp` describes the expansion as a function on trees; the expander computes it.
-/

namespace Minim.Exp

open Minim.Sx Minim.Core Minim.Jit

/-! ### the expansion as a function on trees -/

def andE : List E → E
  | [] => .lit .tru
  | [e] => e
  | e :: e' :: es => .ite e (andE (e' :: es)) (.lit .fls)

def orE : List E → E
  | [] => .lit .fls
  | [e] => e
  | e :: e' :: es => .letv [.mk [sOrT] e] [.ite (.var sOrT) (.var sOrT) (orE (e' :: es))]

def condE : List E → List E → E → E
  | t :: ts, b :: bs, els => .ite t b (condE ts bs els)
  | _, _, els => els

def starE : List Sym → List E → List E → E
  | x :: y :: xs, e :: f :: es, body => .letv [.mk [x] e] [starE (y :: xs) (f :: es) body]
  | x :: _, e :: _, body => .letv [.mk [x] e] body
  | _, _, body => .letv [] body

def voidE : E := .app (.var sVoid) []

def mkBds : List (List Sym) → List E → List Bd
  | xs :: xss, e :: es => .mk xs e :: mkBds xss es
  | _, _ => []

def mkCls : List Formals → List (List E) → List Cl
  | f :: fs, b :: bs => .mk f b :: mkCls fs bs
  | _, _ => []

mutual
def flat : E → List E
  | .begin es => flats es
  | .var x => [.var x]
  | .lit l => [.lit l]
  | .quote d => [.quote d]
  | .quoteSyntax d => [.quoteSyntax d]
  | .unbound => [.unbound]
  | .define xs e => [.define xs e]
  | .set x e => [.set x e]
  | .ite c t e => [.ite c t e]
  | .letv bs b => [.letv bs b]
  | .letrecv bs b => [.letrecv bs b]
  | .lam f b => [.lam f b]
  | .clam cs => [.clam cs]
  | .app f as => [.app f as]
  | .mvcall e c => [.mvcall e c]
  | .mvlet e xs b => [.mvlet e xs b]
  | .mvvals es => [.mvvals es]
def flats : List E → List E
  | [] => []
  | e :: es => flat e ++ flats es
end

def isBegin : E → Bool
  | .begin _ => true
  | _ => false

def isDef : E → Bool
  | .define _ _ => true
  | _ => false

theorem flat_eq {e : E} (h : isBegin e = false) : flat e = [e] := by
  cases e <;> first | rfl | cases h

/-- the binding of an expression among definitions -/
def exBd (e : E) : Bd := .mk [] (.letv [] [e, .app (.var .values) []])

def toBd : E → Bd
  | .define xs e => .mk xs e
  | e => exBd e

/-- definitions and expressions: bindings of all but the last, and the last -/
def recs : List E → List Bd × List E
  | [] => ([], [])
  | [e] => ([], [e])
  | e :: e' :: es => (toBd e :: (recs (e' :: es)).1, (recs (e' :: es)).2)

def asm : List E → List E
  | [] => []
  | e :: es => if isDef e then [.letrecv (recs (e :: es)).1 (recs (e :: es)).2] else e :: asm es

/-- a body, given the expansions of its forms -/
def bodyE (es : List E) : List E := asm (flats es)

/-- a clause of `cond`, given the expansions of its forms -/
def thenE (e : E) (es : List E) : E := if es.isEmpty then e else .letv [] (bodyE (e :: es))

/-- what becomes of a sequence in the context of a definition -/
def seqE (es : List E) : E := match es with | [e] => e | es => .begin es

mutual

def xp : Bool → S → E
  | _, .var x => .var x
  | _, .lit l => .lit l
  | _, .quote d => .quote d
  | _, .quoteSyntax d => .quoteSyntax d
  | rb, .set x e => .set x (xp rb e)
  | rb, .ite c t e => .ite (xp rb c) (xp rb t) (xp rb e)
  | _, .lam f body => .lam f (bodyE (xps false body))
  | _, .clam fs bodies => .clam (mkCls fs (xpBodies bodies))
  | _, .begin [] => voidE
  | true, .begin (e :: es) => seqE (bodyE (xp false e :: xps false es))
  | false, .begin (e :: es) => .begin (xp false e :: xps false es)
  | rb, .app f args => .app (xp rb f) (xps rb args)
  | rb, .letv xss es body => .letv (mkBds xss (xps rb es)) (bodyE (xps false body))
  | rb, .letrecv xss es body => .letrecv (mkBds xss (xps rb es)) (bodyE (xps false body))
  | rb, .and es => andE (xps rb es)
  | _, .or [] => .lit .fls
  | rb, .or (e :: es) => orE (xp rb e :: xps false es)
  | rb, .when c body => .ite (xp rb c) (.letv [] (bodyE (xps false body))) voidE
  | rb, .unless c body => .ite (xp rb c) voidE (.letv [] (bodyE (xps false body)))
  | rb, .cond ts bs [] => condE (xps rb ts) (xpThens rb bs) voidE
  | rb, .cond ts bs (e :: es) => condE (xps rb ts) (xpThens rb bs) (thenE (if es.isEmpty then xp rb e else xp false e) (xps false es))
  | rb, .let1 xs es body => .letv (mkBds (xs.map fun x => [x]) (xps rb es)) (bodyE (xps false body))
  | _, .letstar _ [] body => .letv [] (bodyE (xps false body))
  | rb, .letstar xs (e :: es) body => starE xs (xp rb e :: xps false es) (bodyE (xps false body))
  | rb, .letrec xs es body => .letrecv (mkBds (xs.map fun x => [x]) (xps rb es)) (bodyE (xps false body))
  | _, .nlet f xs es body => .letrecv [.mk [f] (.lam ⟨xs, none⟩ (bodyE (xps false body)))] [.app (.var f) (xps false es)]
  | _, .define xs e => .define xs (xp true e)
  | _, .def1 x e => .define [x] (xp true e)
  | _, .fn f fs body => .define [f] (.lam fs (bodyE (xps false body)))

def xps : Bool → List S → List E
  | _, [] => []
  | rb, e :: es => xp rb e :: xps rb es

def xpBodies : List (List S) → List (List E)
  | [] => []
  | b :: bs => bodyE (xps false b) :: xpBodies bs

def xpThens : Bool → List (List S) → List E
  | _, [] => []
  | rb, [] :: bs => voidE :: xpThens rb bs
  | rb, (e :: es) :: bs => thenE (if es.isEmpty then xp rb e else xp false e) (xps false es) :: xpThens rb bs

end

/-! ### names -/

/-- names with a meaning of their own for the expander -/
def keywords : List Sym := [.defineValues, .letValues, .letrecValues, .quote, .quoteSyntax, .setb, .ifS, .lambda, .caseLambda, .begin, sLetSyntaxes, sDefineSyntaxes]

/-- the macros of the library that are covered -/
def macros : List (Sym × (T → Res T)) :=
  [(sAnd, andM), (sOr, orM), (sCond, condM), (sElse, elseM), (sLet, letM), (sLetStar, letStarM), (sLetrec, letrecM), (sWhen, whenM), (sUnless, unlessM), (sDefine, defineM)]

/-- Specification: variables that may be bound, assigned or defined. -/
def Bindable (N : Sym → Prop) (x : Sym) : Prop := N x ∧ x ≠ sVoid ∧ x ≠ .values

/-- Specification: a body ends with an expression. -/
def endsExpr : List S → Bool
  | [] => false
  | [e] => (defn e).isNone
  | _ :: e :: es => endsExpr (e :: es)

mutual

/-- Specification: well-formed expressions and definitions over the names `N`. -/
def Ok (N : Sym → Prop) : S → Prop
  | .var x => N x
  | .lit _ => True
  | .quote _ => True
  | .quoteSyntax _ => True
  | .set x e => Bindable N x ∧ defn e = none ∧ Ok N e
  | .ite c t e => (defn c = none ∧ Ok N c) ∧ (defn t = none ∧ Ok N t) ∧ (defn e = none ∧ Ok N e)
  | .lam f body => (∀ x ∈ f.ids, Bindable N x) ∧ endsExpr body = true ∧ (defIds body).Nodup ∧ OkI N body
  | .clam fs bodies => fs.length = bodies.length ∧ (∀ f ∈ fs, ∀ x ∈ f.ids, Bindable N x) ∧ OkBs N bodies
  | .begin es => OkL N es
  | .app f args => (defn f = none ∧ Ok N f) ∧ OkL N args
  | .letv xss es body => xss.length = es.length ∧ xss.flatten.Nodup ∧ (∀ x ∈ xss.flatten, Bindable N x) ∧ OkL N es ∧ endsExpr body = true ∧ (defIds body).Nodup ∧ OkI N body
  | .letrecv xss es body => xss.length = es.length ∧ xss.flatten.Nodup ∧ (∀ x ∈ xss.flatten, Bindable N x) ∧ OkL N es ∧ endsExpr body = true ∧ (defIds body).Nodup ∧ OkI N body
  | .and es => OkL N es
  | .or es => OkL N es
  | .when c body => (defn c = none ∧ Ok N c) ∧ endsExpr body = true ∧ (defIds body).Nodup ∧ OkI N body
  | .unless c body => (defn c = none ∧ Ok N c) ∧ endsExpr body = true ∧ (defIds body).Nodup ∧ OkI N body
  | .cond ts bs els => ts.length = bs.length ∧ OkL N ts ∧ OkBs N bs ∧ (els = [] ∨ endsExpr els = true) ∧ (defIds els).Nodup ∧ OkI N els
  | .let1 xs es body => xs.length = es.length ∧ xs.Nodup ∧ (∀ x ∈ xs, Bindable N x) ∧ OkL N es ∧ endsExpr body = true ∧ (defIds body).Nodup ∧ OkI N body
  | .letstar xs es body => xs.length = es.length ∧ (∀ x ∈ xs, Bindable N x) ∧ OkL N es ∧ endsExpr body = true ∧ (defIds body).Nodup ∧ OkI N body
  | .letrec xs es body => xs.length = es.length ∧ xs.Nodup ∧ (∀ x ∈ xs, Bindable N x) ∧ OkL N es ∧ endsExpr body = true ∧ (defIds body).Nodup ∧ OkI N body
  | .nlet f xs es body => xs.length = es.length ∧ Bindable N f ∧ (∀ x ∈ xs, Bindable N x) ∧ OkL N es ∧ OkL (fun x => N x ∧ x ≠ f) es ∧ endsExpr body = true ∧ (defIds body).Nodup ∧ OkI N body
  | .define xs e => (∀ x ∈ xs, Bindable N x) ∧ defn e = none ∧ Ok N e
  | .def1 x e => Bindable N x ∧ defn e = none ∧ Ok N e
  | .fn f fs body => Bindable N f ∧ (∀ x ∈ fs.ids, Bindable N x) ∧ endsExpr body = true ∧ (defIds body).Nodup ∧ OkI N body

/-- Specification: well-formed expressions. -/
def OkL (N : Sym → Prop) : List S → Prop
  | [] => True
  | e :: es => (defn e = none ∧ Ok N e) ∧ OkL N es

/-- Specification: well-formed expressions and definitions. -/
def OkI (N : Sym → Prop) : List S → Prop
  | [] => True
  | e :: es => Ok N e ∧ OkI N es

/-- Specification: well-formed bodies. -/
def OkBs (N : Sym → Prop) : List (List S) → Prop
  | [] => True
  | b :: bs => (endsExpr b = true ∧ (defIds b).Nodup ∧ OkI N b) ∧ OkBs N bs

end

/-- Specification: nothing in the scopes of transformers is named like a variable of the program. -/
inductive XfOk (N : Sym → Prop) : Xf → Prop where
  | mk {f : T → Res T} {sc : Xforms} : (∀ p ∈ sc, ¬ N p.1) → (∀ p ∈ sc, XfOk N p.2) → XfOk N (.mk f sc)

/-- the names that occur in expansions -/
def Vis (N : Sym → Prop) (x : Sym) : Prop := N x ∨ x = sOrT ∨ x = sVoid ∨ x = .values

/-- Specification: the transformers in scope are the macros of the library, and others that are not named like a variable of the program (nor `or-t`, `void`, `values`). -/
structure Scope (N : Sym → Prop) (xs : Xforms) : Prop where
  std : ∀ p ∈ macros, ∃ sc, lookup p.1 xs = some (.mk p.2 sc)
  names : ∀ p ∈ xs, ¬ Vis N p.1
  inner : ∀ p ∈ xs, XfOk (Vis N) p.2

/-- Specification: the variables of the program are neither keywords nor `or-t`. -/
structure Names (N : Sym → Prop) : Prop where
  kw : ∀ x, N x → x ∉ keywords
  ort : ∀ x, N x → x ≠ sOrT

theorem lookup_none {s : Sym} : ∀ {xs : Xforms}, (∀ p ∈ xs, p.1 ≠ s) → lookup s xs = none
  | [], _ => rfl
  | (n, x) :: xs, h => by
    rw [lookup, if_neg (h (n, x) (List.mem_cons_self ..))]
    exact lookup_none fun p hp => h p (List.mem_cons_of_mem _ hp)

theorem lookup_mem {s : Sym} {x : Xf} : ∀ {xs : Xforms}, lookup s xs = some x → (s, x) ∈ xs
  | [], h => by cases h
  | (n, y) :: xs, h => by
    rw [lookup] at h
    split at h
    next e => cases h; subst e; exact List.mem_cons_self ..
    · exact List.mem_cons_of_mem _ (lookup_mem h)

theorem lookup_merge {s : Sym} {x : Xf} : ∀ {new xs : Xforms}, lookup s xs = some x → lookup s (merge xs new) = some x
  | [], _, h => h
  | y :: new, xs, h => by
    rw [merge]
    split
    · exact lookup_merge h
    next hn =>
      apply lookup_merge
      obtain ⟨n, y⟩ := y
      rw [lookup, if_neg]
      · exact h
      · rintro rfl
        simp [h] at hn

theorem mem_merge {p : Sym × Xf} : ∀ {new xs : Xforms}, p ∈ merge xs new → p ∈ xs ∨ p ∈ new
  | [], _, h => .inl h
  | y :: new, xs, h => by
    rw [merge] at h
    split at h
    · exact (mem_merge h).imp id (List.mem_cons_of_mem _)
    · rcases mem_merge h with h | h
      · rcases List.mem_cons.1 h with rfl | h
        · exact .inr (List.mem_cons_self ..)
        · exact .inl h
      · exact .inr (List.mem_cons_of_mem _ h)

theorem Scope.none {N : Sym → Prop} {xs : Xforms} (h : Scope N xs) {x : Sym} (hx : Vis N x) : lookup x xs = none :=
  lookup_none fun p hp e => h.names p hp (e ▸ hx)

theorem Scope.merge {N : Sym → Prop} {xs : Xforms} (h : Scope N xs) {s : Sym} {x : Xf} (hx : lookup s xs = some x) : Scope N (merge xs x.scope) := by
  have := h.inner _ (lookup_mem hx)
  obtain ⟨f, sc⟩ := x
  cases this with
  | mk h1 h2 =>
    refine ⟨fun p hp => (h.std p hp).imp fun _ => lookup_merge, fun p hp => ?_, fun p hp => ?_⟩
    · rcases mem_merge hp with hp | hp
      · exact h.names p hp
      · exact h1 p hp
    · rcases mem_merge hp with hp | hp
      · exact h.inner p hp
      · exact h2 p hp

/-! ### syntax objects made from data -/

@[simp] theorem toSyntax_syn (x : X) : toSyntax (syn x) = syn x := by cases x <;> rfl

@[simp] theorem pairTail_tl (x : X) : pairTail (syn.tl x) = syn.tl x := by
  induction x with
  | cons a d _ ih => simp [syn.tl, pairTail, ih]
  | _ => rfl

@[simp] theorem pairTail_syn (x : X) : pairTail (syn x) = syn x := by cases x <;> rfl

theorem strip_tl (x : X) : strip (syn x) = x ∧ strip (syn.tl x) = x := by
  induction x with
  | cons a d iha ihd => simp [syn, syn.tl, strip, iha.1, ihd.2]
  | _ => exact ⟨rfl, rfl⟩

theorem strip_syn (x : X) : strip (syn x) = x := (strip_tl x).1

theorem isList_tl (x : X) : isList (syn.tl x) = Sx.isList x := by
  induction x with
  | cons a d _ ih => simp [syn.tl, isList, Sx.isList, ih]
  | _ => rfl

@[simp] theorem isList_ofList (xs : List X) : isList (syn.tl (ofList xs)) = true := by
  rw [isList_tl, isList_iff]; exact ⟨xs, rfl⟩

theorem tl_ofList : ∀ xs : List X, syn.tl (ofList xs) = listT (xs.map syn)
  | [] => rfl
  | x :: xs => by simp [ofList, syn.tl, listT, tl_ofList xs]

theorem listLoop_listT : ∀ xs : List X, listLoop (listT (xs.map syn)) = some (xs.map syn)
  | [] => rfl
  | [x] => by simp [listT, listLoop]
  | x :: y :: xs => by
    have := listLoop_listT (y :: xs)
    simp only [List.map_cons, listT] at this ⊢
    rw [listLoop, this]; rfl
    simp

theorem stxElems_syn (x : X) (xs : List X) : stxElems (syn (.cons x (ofList xs))) = .ok (syn x :: xs.map syn) := by
  have h : listLoop (T.cons (syn x) (syn.tl (ofList xs))) = some (syn x :: xs.map syn) := by
    rw [tl_ofList]; exact listLoop_listT (x :: xs)
  simp [stxElems, syn, syntaxToList, h]

theorem stxElems_ofList (xs : List X) : stxElems (syn (ofList xs)) = .ok (xs.map syn) := by
  cases xs with
  | nil => rfl
  | cons x xs => exact stxElems_syn x xs

theorem rawList_tl : ∀ xs : List X, rawList (syn.tl (ofList xs)) = .ok (xs.map syn)
  | [] => rfl
  | x :: xs => by simp [ofList, syn.tl, rawList, rawList_tl xs]

theorem toSyntax_cons (x : X) (xs : List X) : toSyntax (.cons (syn x) (listT (xs.map syn))) = syn (.cons x (ofList xs)) := by
  rw [← tl_ofList]; simp [toSyntax, syn]

theorem toSyntax_list (xs : List X) : toSyntax (listT (xs.map syn)) = syn (ofList xs) := by
  cases xs with
  | nil => rfl
  | cons x xs => exact toSyntax_cons x xs

theorem idSyms_ids : ∀ xs : List Sym, idSyms ((xs.map X.sym).map syn) = xs
  | [] => rfl
  | x :: xs => by
    have := idSyms_ids xs
    simp only [List.map_cons, syn, idSyms, this]

theorem all_ids : ∀ xs : List Sym, ((xs.map X.sym).map syn).all identifierQ = true
  | [] => rfl
  | x :: xs => by
    have := all_ids xs
    simp only [List.map_cons, syn, List.all_cons, identifierQ, this, Bool.and_self]

theorem syn_eq_qs {x : X} {s : Sym} (h : syn x = qs s) : x = .sym s := by
  cases x <;> simp [syn, qs] at h ⊢
  exact h

end Minim.Exp

import Verif.Check

set_option autoImplicit false

/-!
# Properties of the syntax checker (C45)

Specification: the grammar of core forms, written down as an inductive predicate on S-expressions.
-/

namespace Minim.Chk

open Minim.Sx

/-- the symbols that make a list a core form instead of an application -/
def isKw : Sym → Bool
  | .defineValues | .letValues | .letrecValues | .quote | .quoteSyntax | .setb | .ifS | .lambda | .caseLambda | .begin => true
  | _ => false

/-- `h` does not start a core form -/
def NotKw (h : X) : Prop := ∀ s, h = .sym s → isKw s = false

/-- a binding `((id ...) e)` -/
def binding (b : List Sym × X) : X := ofList [ids b.1, b.2]

/-- a clause `(formals body ...)` -/
def clause (c : (List Sym × Option Sym) × List X) : X := .cons (formals c.1.1 c.1.2) (ofList c.2)

/-- The core grammar.  With `strict` the operator of an application is an expression, without it is anything. -/
inductive Gen (strict : Bool) : X → Prop
  | var (s : Sym) : Gen strict (.sym s)
  | lit (l : Lit) : Gen strict (.lit l)
  | quote (d : X) : Gen strict (ofList [.sym .quote, d])
  | quoteSyntax (d : X) : Gen strict (ofList [.sym .quoteSyntax, d])
  | set (s : Sym) (e : X) : Gen strict e → Gen strict (ofList [.sym .setb, .sym s, e])
  | ite (c t e : X) : Gen strict c → Gen strict t → Gen strict e → Gen strict (ofList [.sym .ifS, c, t, e])
  | define (xs : List Sym) (e : X) : Gen strict e → Gen strict (ofList [.sym .defineValues, ids xs, e])
  | letv (k : Sym) (bs : List (List Sym × X)) (body : List X) : k = .letValues ∨ k = .letrecValues →
      (∀ b ∈ bs, Gen strict b.2) → body ≠ [] → (∀ e ∈ body, Gen strict e) →
      Gen strict (.cons (.sym k) (.cons (ofList (bs.map binding)) (ofList body)))
  | lam (xs : List Sym) (r : Option Sym) (body : List X) : body ≠ [] → (∀ e ∈ body, Gen strict e) →
      Gen strict (.cons (.sym .lambda) (.cons (formals xs r) (ofList body)))
  | clam (cs : List ((List Sym × Option Sym) × List X)) : (∀ c ∈ cs, c.2 ≠ []) → (∀ c ∈ cs, ∀ e ∈ c.2, Gen strict e) →
      Gen strict (.cons (.sym .caseLambda) (ofList (cs.map clause)))
  | begin (body : List X) : body ≠ [] → (∀ e ∈ body, Gen strict e) → Gen strict (.cons (.sym .begin) (ofList body))
  | app (f : X) (as : List X) : NotKw f → (strict = true → Gen strict f) → (∀ a ∈ as, Gen strict a) →
      Gen strict (.cons f (ofList as))

/-- The grammar of core expressions. -/
abbrev Core : X → Prop := Gen true

theorem Gen.weaken {x : X} (h : Gen true x) : Gen false x := by
  induction h with
  | var s => exact .var s
  | lit l => exact .lit l
  | quote d => exact .quote d
  | quoteSyntax d => exact .quoteSyntax d
  | set s e _ ih => exact .set s e ih
  | ite c t e _ _ _ i1 i2 i3 => exact .ite c t e i1 i2 i3
  | define xs e _ ih => exact .define xs e ih
  | letv k bs body hk _ hne _ i1 i2 => exact .letv k bs body hk i1 hne i2
  | lam xs r body hne _ ih => exact .lam xs r body hne ih
  | clam cs h _ ih => exact .clam cs h ih
  | begin body hne _ ih => exact .begin body hne ih
  | app f as hf _ _ _ ih => exact .app f as hf (fun h => by cases h) ih

/-! Unfolding by head symbol -/

theorem check_define (r : X) : check (.cons (.sym .defineValues) r) =
    match r with
    | .cons i (.cons e .null) => if isIds i then check e else .err
    | _ => .err := by rw [check.eq_def]; rfl

theorem check_let (k : Sym) (hk : k = .letValues ∨ k = .letrecValues) (bs b body : X) :
    check (.cons (.sym k) (.cons bs (.cons b body))) =
    if bindShape bs then checkInits bs >>= fun _ => (if isList (.cons b body) then checkSeq (.cons b body) else .err) else .err := by
  rcases hk with rfl | rfl <;> (rw [check.eq_def]; rfl)

theorem check_let_inv (k : Sym) (hk : k = .letValues ∨ k = .letrecValues) (r : X) (h : check (.cons (.sym k) r) = .ok ()) :
    ∃ bs b body, r = .cons bs (.cons b body) := by
  rw [check.eq_def] at h
  have h1 : (X.sym k = .sym .defineValues) = False := by rcases hk with rfl | rfl <;> simp
  have h2 : (X.sym k = .sym .letValues ∨ X.sym k = .sym .letrecValues) = True := by rcases hk with rfl | rfl <;> simp
  simp only [h1, h2, if_false, if_true] at h
  cases r with
  | cons bs d =>
    cases d with
    | cons b body => exact ⟨bs, b, body, rfl⟩
    | _ => cases h
  | _ => cases h

theorem check_lambda (fs body : X) : check (.cons (.sym .lambda) (.cons fs body)) =
    if isFormals fs then (if isList body then checkSeq body else .err) else .err := by rw [check.eq_def]; rfl

theorem check_caseLambda (r : X) : check (.cons (.sym .caseLambda) r) = checkClauses r := by rw [check.eq_def]; rfl

theorem check_begin (r : X) : check (.cons (.sym .begin) r) = if isList r then checkSeq r else .err := by
  rw [check.eq_def]; rfl

theorem checkClauses_cons (fs body cs : X) : checkClauses (.cons (.cons fs body) cs) =
    if isFormals fs then (if isList body then checkSeq body else .err) >>= fun _ => checkClauses cs else .err := by
  rw [checkClauses.eq_def]

/-! ## Accepted expressions -/

theorem checkArgs_ofList (as : List X) (h : ∀ a ∈ as, check a = .ok ()) : checkArgs (ofList as) = .ok () := by
  induction as with
  | nil => rw [ofList, checkArgs]
  | cons a as ih =>
    rw [ofList, checkArgs, h a (by simp), Res.ok_bind]
    exact ih fun x hx => h x (by simp [hx])

theorem checkSeq_ofList (as : List X) (hne : as ≠ []) (h : ∀ a ∈ as, check a = .ok ()) : checkSeq (ofList as) = .ok () := by
  induction as with
  | nil => exact absurd rfl hne
  | cons a as ih =>
    cases as with
    | nil => rw [ofList, ofList, checkSeq]; exact h a (by simp)
    | cons b bs =>
      rw [ofList, ofList, checkSeq, h a (by simp), Res.ok_bind]
      exact ih (by simp) fun x hx => h x (by simp [hx])

theorem isList_ofList (xs : List X) : isList (ofList xs) = true := (isList_iff _).2 ⟨xs, rfl⟩
theorem isIds_ids (xs : List Sym) : isIds (ids xs) = true := (isIds_iff _).2 ⟨xs, rfl⟩
theorem isFormals_formals (xs : List Sym) (r : Option Sym) : isFormals (formals xs r) = true := (isFormals_iff _).2 ⟨xs, r, rfl⟩

theorem bindShape_ofList (bs : List (List Sym × X)) : bindShape (ofList (bs.map binding)) = true := by
  induction bs with
  | nil => rfl
  | cons b bs ih => simp only [List.map_cons, ofList, binding, bindShape, isIds_ids, Bool.true_and]; exact ih

theorem checkInits_ofList (bs : List (List Sym × X)) (h : ∀ b ∈ bs, check b.2 = .ok ()) :
    checkInits (ofList (bs.map binding)) = .ok () := by
  induction bs with
  | nil => rw [List.map_nil, ofList, checkInits]
  | cons b bs ih =>
    simp only [List.map_cons, ofList, binding, checkInits, h b (by simp), Res.ok_bind]
    exact ih fun x hx => h x (by simp [hx])

theorem checkClauses_ofList (cs : List ((List Sym × Option Sym) × List X))
    (h : ∀ c ∈ cs, checkSeq (ofList c.2) = .ok ()) : checkClauses (ofList (cs.map clause)) = .ok () := by
  induction cs with
  | nil => rw [List.map_nil, ofList, checkClauses]
  | cons c cs ih =>
    simp only [List.map_cons, ofList, clause, checkClauses, isFormals_formals, isList_ofList, if_true, h c (by simp), Res.ok_bind]
    exact ih fun x hx => h x (by simp [hx])

/-- an application is checked argument by argument -/
theorem check_app (f r : X) (hf : NotKw f) : check (.cons f r) = if isList r then checkArgs r else .err := by
  rw [check.eq_def]
  dsimp only
  have key : ∀ s, isKw s = true → f ≠ .sym s := by
    intro s hs e
    have := hf s e
    rw [hs] at this; cases this
  rw [if_neg (key _ rfl), if_neg (fun h => h.elim (key _ rfl) (key _ rfl)),
    if_neg (fun h => h.elim (key _ rfl) (key _ rfl)), if_neg (key _ rfl), if_neg (key _ rfl),
    if_neg (key _ rfl), if_neg (key _ rfl), if_neg (key _ rfl)]

theorem check_of_gen {x : X} (h : Gen false x) : check x = .ok () := by
  induction h with
  | var s => rw [check]
  | lit l => rw [check]
  | quote d => simp [ofList, check]
  | quoteSyntax d => simp [ofList, check]
  | set s e _ ih => simp [ofList, check, ih]
  | ite c t e _ _ _ i1 i2 i3 => simp [ofList, check, i1, i2, i3]
  | define xs e _ ih => simp [ofList, check, ih, isIds_ids]
  | letv k bs body hk _ hne _ i1 i2 =>
    obtain ⟨b, body', rfl⟩ := List.exists_cons_of_ne_nil hne
    have h1 := checkInits_ofList bs i1
    have h2 := checkSeq_ofList _ hne i2
    have h3 := isList_ofList (b :: body')
    rw [ofList] at h2 h3
    rw [ofList, check_let k hk]
    simp [bindShape_ofList, h1, h2, h3]
  | lam xs r body hne _ ih => simp [check_lambda, isFormals_formals, isList_ofList, checkSeq_ofList _ hne ih]
  | clam cs h _ ih => simp [check_caseLambda, checkClauses_ofList cs fun c hc => checkSeq_ofList _ (h c hc) (ih c hc)]
  | begin body hne _ ih => simp [check_begin, isList_ofList, checkSeq_ofList _ hne ih]
  | app f as hf _ _ _ ih => rw [check_app f _ hf, isList_ofList, if_pos rfl, checkArgs_ofList as ih]

/-! ## What acceptance means -/

theorem bindShape_inv : ∀ x, bindShape x = true → ∃ bs : List (List Sym × X), x = ofList (bs.map binding)
  | .null, _ => ⟨[], rfl⟩
  | .cons b bs, h => by
    match b, h with
    | .cons i (.cons e .null), h =>
      simp only [bindShape, Bool.and_eq_true] at h
      obtain ⟨xs, rfl⟩ := (isIds_iff i).1 h.1
      obtain ⟨bs', rfl⟩ := bindShape_inv bs h.2
      exact ⟨(xs, e) :: bs', rfl⟩
  | .sym _, h => by simp [bindShape] at h
  | .lit _, h => by simp [bindShape] at h
  | .other _, h => by simp [bindShape] at h

theorem checkInits_inv (bs : List (List Sym × X)) (h : checkInits (ofList (bs.map binding)) = .ok ()) :
    ∀ b ∈ bs, check b.2 = .ok () := by
  induction bs with
  | nil => intro b hb; cases hb
  | cons b bs ih =>
    simp only [List.map_cons, ofList, binding, checkInits, Res.bind_eq_ok] at h
    obtain ⟨_, h1, h2⟩ := h
    intro c hc
    rcases List.mem_cons.1 hc with rfl | hc
    · exact h1
    · exact ih h2 c hc

theorem checkArgs_inv (as : List X) (h : checkArgs (ofList as) = .ok ()) : ∀ a ∈ as, check a = .ok () := by
  induction as with
  | nil => intro b hb; cases hb
  | cons b bs ih =>
    rw [ofList, checkArgs] at h
    simp only [Res.bind_eq_ok] at h
    obtain ⟨_, h1, h2⟩ := h
    intro c hc
    rcases List.mem_cons.1 hc with rfl | hc
    · exact h1
    · exact ih h2 c hc

theorem checkSeq_inv (as : List X) (h : checkSeq (ofList as) = .ok ()) : as ≠ [] ∧ ∀ a ∈ as, check a = .ok () := by
  induction as with
  | nil => simp [ofList, checkSeq] at h
  | cons b bs ih =>
    refine ⟨by simp, ?_⟩
    cases bs with
    | nil =>
      rw [ofList, ofList, checkSeq] at h
      intro a ha
      rw [List.mem_singleton] at ha
      rw [ha]; exact h
    | cons c cs =>
      rw [ofList, ofList, checkSeq] at h
      simp only [Res.bind_eq_ok] at h
      obtain ⟨_, h1, h2⟩ := h
      intro a ha
      rcases List.mem_cons.1 ha with rfl | ha
      · exact h1
      · exact (ih h2).2 a ha

theorem checkClauses_inv : ∀ x, checkClauses x = .ok () →
    ∃ cs : List ((List Sym × Option Sym) × List X), x = ofList (cs.map clause) ∧ ∀ c ∈ cs, checkSeq (ofList c.2) = .ok ()
  | .null, _ => ⟨[], rfl, by simp⟩
  | .cons c cs, h => by
    cases c with
    | cons fs body =>
      rw [checkClauses_cons] at h
      by_cases h1 : isFormals fs = true
      · rw [if_pos h1] at h
        simp only [Res.bind_eq_ok] at h
        obtain ⟨_, h2, h3⟩ := h
        by_cases h4 : isList body = true
        · rw [if_pos h4] at h2
          obtain ⟨xs, r, rfl⟩ := (isFormals_iff fs).1 h1
          obtain ⟨es, rfl⟩ := (isList_iff body).1 h4
          obtain ⟨cs', rfl, h5⟩ := checkClauses_inv cs h3
          refine ⟨((xs, r), es) :: cs', rfl, ?_⟩
          intro c hc
          rcases List.mem_cons.1 hc with rfl | hc
          · exact h2
          · exact h5 c hc
        · rw [if_neg h4] at h2; cases h2
      · rw [if_neg h1] at h; cases h
    | _ => rw [checkClauses.eq_def] at h; cases h
  | .sym _, h => by simp [checkClauses] at h
  | .lit _, h => by simp [checkClauses] at h
  | .other _, h => by simp [checkClauses] at h

/-- nodes of an S-expression (induction measure) -/
def size : X → Nat
  | .cons a d => size a + size d + 1
  | _ => 1

theorem size_ofList {as : List X} {a : X} (h : a ∈ as) : size a < size (ofList as) := by
  induction as with
  | nil => cases h
  | cons b bs ih =>
    rw [ofList, size]
    rcases List.mem_cons.1 h with rfl | h
    · omega
    · have := ih h; omega

theorem size_binding (b : List Sym × X) : size b.2 < size (binding b) := size_ofList (by simp)

theorem gen_of_check (n : Nat) : ∀ x, size x ≤ n → check x = .ok () → Gen false x := by
  induction n with
  | zero => intro x hx; cases x <;> simp [size] at hx
  | succ n ih =>
    intro x hx h
    cases x with
    | null => rw [check] at h; cases h
    | other _ => rw [check] at h; cases h
    | sym s => exact .var s
    | lit l => exact .lit l
    | cons hd r =>
      rw [size] at hx
      by_cases hk : NotKw hd
      · rw [check_app _ _ hk] at h
        by_cases hl : isList r = true
        · rw [if_pos hl] at h
          obtain ⟨as, rfl⟩ := (isList_iff r).1 hl
          refine .app hd as hk (fun h => by cases h) fun a ha => ?_
          have := size_ofList ha
          exact ih a (by omega) (checkArgs_inv as h a ha)
        · rw [if_neg hl] at h; cases h
      · have : ∃ s, hd = .sym s ∧ isKw s = true := by
          unfold NotKw at hk
          refine Classical.byContradiction fun hn => hk fun s h1 => ?_
          cases h2 : isKw s
          · rfl
          · exact absurd ⟨s, h1, h2⟩ hn
        obtain ⟨s, rfl, hs⟩ := this
        cases s <;> simp only [isKw, Bool.false_eq_true] at hs
        case defineValues =>
          rw [check_define] at h
          match r, h, hx with
          | .cons i (.cons e .null), h, hx =>
            simp only [size] at hx
            by_cases hi : isIds i = true
            · simp only [if_pos hi] at h
              obtain ⟨xs, rfl⟩ := (isIds_iff i).1 hi
              exact .define xs e (ih e (by omega) h)
            · simp only [if_neg hi] at h; cases h
        case letValues =>
          obtain ⟨bs, b, body, rfl⟩ := check_let_inv _ (.inl rfl) r h
          simp only [size] at hx
          rw [check_let _ (.inl rfl)] at h
          by_cases hb : bindShape bs = true
          · simp only [if_pos hb, Res.bind_eq_ok] at h
            obtain ⟨_, h1, h2⟩ := h
            by_cases hl : isList (.cons b body) = true
            · rw [if_pos hl] at h2
              obtain ⟨bs', rfl⟩ := bindShape_inv bs hb
              obtain ⟨es, he⟩ := (isList_iff _).1 hl
              rw [he] at h2 ⊢
              have hsz : size (X.cons b body) = size (ofList es) := by rw [he]
              rw [size] at hsz
              refine .letv _ bs' es (.inl rfl) (fun c hc => ?_) (checkSeq_inv es h2).1 fun e he' => ?_
              · have := size_ofList (List.mem_map.2 ⟨c, hc, rfl⟩ : binding c ∈ bs'.map binding)
                have := size_binding c
                exact ih _ (by omega) (checkInits_inv bs' h1 c hc)
              · have := size_ofList he'
                exact ih _ (by omega) ((checkSeq_inv es h2).2 e he')
            · rw [if_neg hl] at h2; cases h2
          · simp only [if_neg hb] at h; cases h
        case letrecValues =>
          obtain ⟨bs, b, body, rfl⟩ := check_let_inv _ (.inr rfl) r h
          simp only [size] at hx
          rw [check_let _ (.inr rfl)] at h
          by_cases hb : bindShape bs = true
          · simp only [if_pos hb, Res.bind_eq_ok] at h
            obtain ⟨_, h1, h2⟩ := h
            by_cases hl : isList (.cons b body) = true
            · rw [if_pos hl] at h2
              obtain ⟨bs', rfl⟩ := bindShape_inv bs hb
              obtain ⟨es, he⟩ := (isList_iff _).1 hl
              rw [he] at h2 ⊢
              have hsz : size (X.cons b body) = size (ofList es) := by rw [he]
              rw [size] at hsz
              refine .letv _ bs' es (.inr rfl) (fun c hc => ?_) (checkSeq_inv es h2).1 fun e he' => ?_
              · have := size_ofList (List.mem_map.2 ⟨c, hc, rfl⟩ : binding c ∈ bs'.map binding)
                have := size_binding c
                exact ih _ (by omega) (checkInits_inv bs' h1 c hc)
              · have := size_ofList he'
                exact ih _ (by omega) ((checkSeq_inv es h2).2 e he')
            · rw [if_neg hl] at h2; cases h2
          · simp only [if_neg hb] at h; cases h
        case quote =>
          rw [check.eq_def] at h
          simp only [reduceCtorEq, X.sym.injEq, if_false, if_true, or_false, or_true, true_or] at h
          match r, h with
          | .cons d .null, _ => exact .quote d
        case quoteSyntax =>
          rw [check.eq_def] at h
          simp only [reduceCtorEq, X.sym.injEq, if_false, if_true, or_false, or_true, true_or] at h
          match r, h with
          | .cons d .null, _ => exact .quoteSyntax d
        case setb =>
          rw [check.eq_def] at h
          simp only [reduceCtorEq, X.sym.injEq, if_false, if_true, or_false, or_true, true_or] at h
          match r, h, hx with
          | .cons (.sym s) (.cons e .null), h, hx =>
            simp only [size] at hx
            exact .set s e (ih e (by omega) h)
        case ifS =>
          rw [check.eq_def] at h
          simp only [reduceCtorEq, X.sym.injEq, if_false, if_true, or_false, or_true, true_or] at h
          match r, h, hx with
          | .cons c (.cons t (.cons e .null)), h, hx =>
            simp only [size] at hx
            simp only [Res.bind_eq_ok] at h
            obtain ⟨_, h1, _, h2, h3⟩ := h
            exact .ite c t e (ih c (by omega) h1) (ih t (by omega) h2) (ih e (by omega) h3)
        case lambda =>
          match r, h, hx with
          | .cons fs body, h, hx =>
            simp only [size] at hx
            rw [check_lambda] at h
            by_cases hf : isFormals fs = true
            · by_cases hl : isList body = true
              · rw [if_pos hf, if_pos hl] at h
                obtain ⟨xs, r, rfl⟩ := (isFormals_iff fs).1 hf
                obtain ⟨es, rfl⟩ := (isList_iff body).1 hl
                refine .lam xs r es (checkSeq_inv es h).1 fun e he => ?_
                have := size_ofList he
                exact ih e (by omega) ((checkSeq_inv es h).2 e he)
              · rw [if_pos hf, if_neg hl] at h; cases h
            · rw [if_neg hf] at h; cases h
        case caseLambda =>
          rw [check_caseLambda] at h
          obtain ⟨cs, rfl, h1⟩ := checkClauses_inv r h
          refine .clam cs (fun c hc => (checkSeq_inv _ (h1 c hc)).1) fun c hc e he => ?_
          have h2 := size_ofList (List.mem_map.2 ⟨c, hc, rfl⟩ : clause c ∈ cs.map clause)
          have h3 := size_ofList he
          have h4 : size (ofList c.2) < size (clause c) := by rw [clause, size]; omega
          exact ih e (by omega) ((checkSeq_inv _ (h1 c hc)).2 e he)
        case begin =>
          rw [check_begin] at h
          by_cases hl : isList r = true
          · rw [if_pos hl] at h
            obtain ⟨es, rfl⟩ := (isList_iff r).1 hl
            refine .begin es (checkSeq_inv es h).1 fun e he => ?_
            have := size_ofList he
            exact ih e (by omega) ((checkSeq_inv es h).2 e he)
          · rw [if_neg hl] at h; cases h

/-- C45: the checker accepts every expression of the core grammar. -/
theorem C45_accepts (x : X) (h : Core x) : check x = .ok () := check_of_gen h.weaken

/-- C45: exactly what is accepted: the core grammar with anything at all in operator position. -/
theorem C45_exact (x : X) : check x = .ok () ↔ Gen false x := ⟨gen_of_check _ x (Nat.le_refl _), check_of_gen⟩

example : Core (ofList [.sym .lambda, ids [.user 0], ofList [.sym .ifS, .sym (.user 0), .lit (.const 1), ofList [.sym (.user 1), .lit (.const 2)]]]) := by
  refine Gen.lam [.user 0] none [_] (by simp) ?_
  intro e he
  rw [List.mem_singleton] at he
  subst he
  refine Gen.ite _ _ _ (.var _) (.lit _) (Gen.app _ [_] ?_ (fun _ => .var _) ?_)
  · intro s hs; cases hs; rfl
  · intro a ha
    rw [List.mem_singleton] at ha
    subst ha
    exact .lit _

/-- `f` is the operator of an application that is a part of the expression `x` (not inside quoted data) -/
inductive Op : X → X → Prop
  | here (f r : X) : NotKw f → Op (.cons f r) f
  | arg (f a g : X) (as : List X) : NotKw f → a ∈ as → Op a g → Op (.cons f (ofList as)) g
  | set (s : Sym) (e g : X) : Op e g → Op (ofList [.sym .setb, .sym s, e]) g
  | ite (c t e y g : X) : y ∈ [c, t, e] → Op y g → Op (ofList [.sym .ifS, c, t, e]) g
  | define (xs : List Sym) (e g : X) : Op e g → Op (ofList [.sym .defineValues, ids xs, e]) g
  | letInit (k : Sym) (bs : List (List Sym × X)) (body : List X) (b : List Sym × X) (g : X) : k = .letValues ∨ k = .letrecValues →
      b ∈ bs → Op b.2 g → Op (.cons (.sym k) (.cons (ofList (bs.map binding)) (ofList body))) g
  | letBody (k : Sym) (bs : List (List Sym × X)) (body : List X) (e g : X) : k = .letValues ∨ k = .letrecValues →
      e ∈ body → Op e g → Op (.cons (.sym k) (.cons (ofList (bs.map binding)) (ofList body))) g
  | lam (xs : List Sym) (r : Option Sym) (body : List X) (e g : X) : e ∈ body → Op e g →
      Op (.cons (.sym .lambda) (.cons (formals xs r) (ofList body))) g
  | clam (cs : List ((List Sym × Option Sym) × List X)) (c : (List Sym × Option Sym) × List X) (e g : X) : c ∈ cs → e ∈ c.2 →
      Op e g → Op (.cons (.sym .caseLambda) (ofList (cs.map clause))) g
  | begin (body : List X) (e g : X) : e ∈ body → Op e g → Op (.cons (.sym .begin) (ofList body)) g

/-- C45, soundness as far as it goes: an accepted expression all of whose operators are expressions belongs to the core grammar.
Missing from the property: operators are not checked (`C45_negated_operator`). -/
theorem C45_sound_partial (x : X) (h : check x = .ok ()) (hop : ∀ f, Op x f → Core f) : Core x := by
  replace h := (C45_exact x).1 h
  induction h with
  | var s => exact .var s
  | lit l => exact .lit l
  | quote d => exact .quote d
  | quoteSyntax d => exact .quoteSyntax d
  | set s e _ ih => exact .set s e (ih fun f hf => hop f (.set s e f hf))
  | ite c t e _ _ _ i1 i2 i3 =>
    exact .ite c t e (i1 fun f hf => hop f (.ite c t e c f (by simp) hf)) (i2 fun f hf => hop f (.ite c t e t f (by simp) hf))
      (i3 fun f hf => hop f (.ite c t e e f (by simp) hf))
  | define xs e _ ih => exact .define xs e (ih fun f hf => hop f (.define xs e f hf))
  | letv k bs body hk _ hne _ i1 i2 =>
    exact .letv k bs body hk (fun b hb => i1 b hb fun f hf => hop f (.letInit k bs body b f hk hb hf)) hne
      fun e he => i2 e he fun f hf => hop f (.letBody k bs body e f hk he hf)
  | lam xs r body hne _ ih => exact .lam xs r body hne fun e he => ih e he fun f hf => hop f (.lam xs r body e f he hf)
  | clam cs hne _ ih => exact .clam cs hne fun c hc e he => ih c hc e he fun f hf => hop f (.clam cs c e f hc he hf)
  | begin body hne _ ih => exact .begin body hne fun e he => ih e he fun f hf => hop f (.begin body e f he hf)
  | app f as hf _ _ _ ih =>
    exact .app f as hf (fun _ => hop f (.here f _ hf)) fun a ha => ih a ha fun g hg => hop g (.arg f a g as hf ha hg)

example : check (ofList [.sym (.user 0), .lit (.const 1)]) = .ok () ∧ ∀ f, Op (ofList [.sym (.user 0), .lit (.const 1)]) f → Core f := by
  refine ⟨by decide, ?_⟩
  intro f hf
  generalize hx : ofList [X.sym (.user 0), .lit (.const 1)] = x at hf
  cases hf with
  | here f r _ => simp only [ofList, X.cons.injEq] at hx; rw [← hx.1]; exact .var _
  | arg f a g as _ ha hg =>
    simp only [ofList, X.cons.injEq] at hx
    have : as = [X.lit (.const 1)] := ofList_inj hx.2.symm
    subst this
    rw [List.mem_singleton] at ha
    subst ha
    generalize hy : X.lit (.const 1) = y at hg
    cases hg <;> cases hy
  | _ => simp [ofList] at hx <;> (try (rename_i h _ _; rcases h with h | h <;> rw [h] at hx <;> simp at hx))

/-- C45 is false of the code: an application whose operator is no expression is accepted, here `((if) 1)`. -/
theorem C45_negated_operator : ∃ x, check x = .ok () ∧ ¬ Core x := by
  refine ⟨ofList [ofList [.sym .ifS], .lit (.const 1)], by decide, ?_⟩
  intro h
  generalize hx : ofList [ofList [X.sym .ifS], .lit (.const 1)] = x at h
  cases h with
  | app f as hf hs _ =>
    simp only [ofList, X.cons.injEq] at hx
    have h1 := hs rfl
    rw [← hx.1] at h1
    have h2 := C45_accepts _ h1
    revert h2
    decide
  | _ => simp [ofList] at hx

/-- C45 is false of the code: `(begin)`, `(lambda)`, `(lambda (x))`, `(case-lambda 1)` and `(case-lambda (x))`, none of them in the
grammar, are undefined behaviour instead of syntax errors. -/
theorem C45_negated_ub :
    (check (ofList [.sym .begin]) = .ub ∧ check (ofList [.sym .lambda]) = .ub ∧
      check (ofList [.sym .lambda, ids [.user 0]]) = .ub ∧ check (ofList [.sym .caseLambda, .lit (.const 1)]) = .ub ∧
      check (ofList [.sym .caseLambda, ofList [.sym (.user 0)]]) = .ub) ∧
    ∀ x, check x = .ub → ¬ Core x := by
  refine ⟨by decide, ?_⟩
  intro x h hc
  rw [C45_accepts x hc] at h
  cases h

/-! ## Where the behaviour is defined -/

/-- `y` is a part of `x` -/
inductive Sub : X → X → Prop
  | refl (x : X) : Sub x x
  | car (y a d : X) : Sub y a → Sub y (.cons a d)
  | cdr (y a d : X) : Sub y d → Sub y (.cons a d)

/-- every clause is a pair with a tail other than `()` -/
def ClausesShaped : X → Prop
  | .cons c cs => (∃ fs body, c = .cons fs body ∧ body ≠ .null) ∧ ClausesShaped cs
  | _ => True

/-- No part of `x` is a `begin` without expressions, a `lambda` without formals or body, or a `case-lambda` with such a clause. -/
def Shaped (x : X) : Prop :=
  (∀ r, Sub (.cons (.sym .begin) r) x → r ≠ .null) ∧
  (∀ r, Sub (.cons (.sym .lambda) r) x → ∃ fs body, r = .cons fs body ∧ body ≠ .null) ∧
  ∀ r, Sub (.cons (.sym .caseLambda) r) x → ClausesShaped r

theorem Sub.trans {x y z : X} (h1 : Sub x y) (h2 : Sub y z) : Sub x z := by
  induction h2 with
  | refl => exact h1
  | car a d _ ih => exact .car _ _ _ ih
  | cdr a d _ ih => exact .cdr _ _ _ ih

theorem Shaped.sub {x y : X} (h : Shaped x) (hy : Sub y x) : Shaped y :=
  ⟨fun r hr => h.1 r (hr.trans hy), fun r hr => h.2.1 r (hr.trans hy), fun r hr => h.2.2 r (hr.trans hy)⟩

theorem bind_ne_ub {a : Res Unit} {f : Unit → Res Unit} (h1 : a ≠ .ub) (h2 : ∀ u, f u ≠ .ub) : (a >>= f) ≠ .ub := by
  cases a
  · exact h2 _
  · simp
  · exact absurd rfl h1
  · simp

theorem checkSeq_noub : ∀ x, isList x = true → x ≠ .null → (∀ a d, Sub (.cons a d) x → size a < size x → check a ≠ .ub) → checkSeq x ≠ .ub
  | .null, _, hn, _ => absurd rfl hn
  | .sym _, h, _, _ => by simp [isList] at h
  | .lit _, h, _, _ => by simp [isList] at h
  | .other _, h, _, _ => by simp [isList] at h
  | .cons a .null, _, _, hc => by
    rw [checkSeq]; exact hc a .null (.refl _) (by simp only [size]; omega)
  | .cons a (.cons b r), h, _, hc => by
    rw [checkSeq]
    refine bind_ne_ub (hc a _ (.refl _) (by simp only [size]; omega)) fun _ => ?_
    exact checkSeq_noub _ (by simpa [isList] using h) (by simp) fun c d hs hlt =>
      hc c d (.cdr _ _ _ hs) (by simp only [size] at hlt ⊢; omega)
  | .cons a (.sym _), h, _, _ => by simp [isList] at h
  | .cons a (.lit _), h, _, _ => by simp [isList] at h
  | .cons a (.other _), h, _, _ => by simp [isList] at h

theorem checkArgs_noub : ∀ x, isList x = true → (∀ a d, Sub (.cons a d) x → size a < size x → check a ≠ .ub) → checkArgs x ≠ .ub
  | .null, _, _ => by simp [checkArgs]
  | .sym _, h, _ => by simp [isList] at h
  | .lit _, h, _ => by simp [isList] at h
  | .other _, h, _ => by simp [isList] at h
  | .cons a d, h, hc => by
    rw [checkArgs]
    refine bind_ne_ub (hc a _ (.refl _) (by simp only [size]; omega)) fun _ => ?_
    exact checkArgs_noub d (by simpa [isList] using h) fun c e hs hlt => hc c e (.cdr _ _ _ hs) (by simp only [size]; omega)

theorem checkInits_noub : ∀ x, bindShape x = true → (∀ a, Sub a x → size a < size x → check a ≠ .ub) → checkInits x ≠ .ub := by
  intro x h hc
  obtain ⟨bs, rfl⟩ := bindShape_inv x h
  induction bs with
  | nil => simp [ofList, checkInits]
  | cons b bs ih =>
    simp only [List.map_cons, ofList, binding, checkInits]
    refine bind_ne_ub (hc b.2 (.car _ _ _ (.cdr _ _ _ (.car _ _ _ (.refl _)))) (by simp only [List.map_cons, ofList, binding, size]; omega)) fun _ => ?_
    exact ih (bindShape_ofList bs) fun a hs hlt => hc a (.cdr _ _ _ hs) (by simp only [List.map_cons, ofList, size]; omega)

theorem body_noub (n : Nat) (ih : ∀ x, size x ≤ n → Shaped x → check x ≠ .ub) (b : X) (hs : size b ≤ n) (hb : Shaped b) (hn : b ≠ .null) :
    (if isList b then checkSeq b else .err) ≠ .ub := by
  by_cases hl : isList b = true
  · rw [if_pos hl]
    exact checkSeq_noub b hl hn fun a d hs' hlt => ih a (by omega) (hb.sub (.trans (.car _ _ _ (.refl _)) hs'))
  · rw [if_neg hl]; simp

theorem checkClauses_noub (n : Nat) (ih : ∀ x, size x ≤ n → Shaped x → check x ≠ .ub) : ∀ x, size x ≤ n → Shaped x → ClausesShaped x →
    checkClauses x ≠ .ub
  | .null, _, _, _ => by simp [checkClauses]
  | .sym _, _, _, _ => by simp [checkClauses]
  | .lit _, _, _, _ => by simp [checkClauses]
  | .other _, _, _, _ => by simp [checkClauses]
  | .cons c cs, hs, hx, hc => by
    obtain ⟨⟨fs, body, rfl, hb⟩, hcs⟩ := hc
    simp only [size] at hs
    rw [checkClauses_cons]
    split
    · refine bind_ne_ub (body_noub n ih body (by omega) (hx.sub (.car _ _ _ (.cdr _ _ _ (.refl _)))) hb) fun _ => ?_
      exact checkClauses_noub n ih cs (by omega) (hx.sub (.cdr _ _ _ (.refl _))) hcs
    · simp

theorem check_noub (n : Nat) : ∀ x, size x ≤ n → Shaped x → check x ≠ .ub := by
  induction n with
  | zero => intro x hx; cases x <;> simp [size] at hx
  | succ n ih =>
    intro x hx hsh
    cases x with
    | cons hd r =>
      rw [size] at hx
      have hr : Shaped r := hsh.sub (.cdr _ _ _ (.refl _))
      rw [check.eq_def]
      dsimp only
      split
      · split
        · rename_i i e
          simp only [size] at hx
          split
          · exact ih e (by omega) (hr.sub (.cdr _ _ _ (.car _ _ _ (.refl _))))
          · simp
        · simp
      · split
        · split
          · split
            · split
              · rename_i bs _ _ _ hb
                simp only [size] at hx
                refine bind_ne_ub (checkInits_noub bs hb fun a hs hlt => ih a (by omega) (hr.sub (.car _ _ _ hs))) fun _ => ?_
                exact body_noub n ih _ (by simp only [size]; omega) (hr.sub (.cdr _ _ _ (.refl _))) (by simp)
              · simp
            · simp
          · simp
        · split
          · split <;> simp
          · split
            · split
              · rename_i e
                simp only [size] at hx
                exact ih e (by omega) (hr.sub (.cdr _ _ _ (.car _ _ _ (.refl _))))
              · simp
            · split
              · split
                · rename_i c t e
                  simp only [size] at hx
                  refine bind_ne_ub (ih c (by omega) (hr.sub (.car _ _ _ (.refl _)))) fun _ => ?_
                  refine bind_ne_ub (ih t (by omega) (hr.sub (.cdr _ _ _ (.car _ _ _ (.refl _))))) fun _ => ?_
                  exact ih e (by omega) (hr.sub (.cdr _ _ _ (.cdr _ _ _ (.car _ _ _ (.refl _)))))
                · simp
              · split
                · rename_i hl
                  subst hl
                  obtain ⟨fs, body, rfl, hb⟩ := hsh.2.1 r (.refl _)
                  simp only [size] at hx
                  dsimp only
                  split
                  · exact body_noub n ih body (by omega) (hr.sub (.cdr _ _ _ (.refl _))) hb
                  · simp
                · split
                  · rename_i hl
                    subst hl
                    exact checkClauses_noub n ih r (by omega) hr (hsh.2.2 r (.refl _))
                  · split
                    · rename_i hl
                      subst hl
                      exact body_noub n ih r (by omega) hr (hsh.1 r (.refl _))
                    · split
                      · rename_i hl
                        exact checkArgs_noub r hl fun a d hs hlt => ih a (by omega) (hr.sub (.trans (.car _ _ _ (.refl _)) hs))
                      · simp
    | _ => simp [check]

mutual

theorem check_ne_oof : ∀ x, check x ≠ .oof
  | .null => by simp [check]
  | .sym _ => by simp [check]
  | .lit _ => by simp [check]
  | .other _ => by simp [check]
  | .cons hd r => by
    rw [check.eq_def]
    dsimp only
    split
    · split
      · split
        · exact check_ne_oof _
        · simp
      · simp
    · split
      · split
        · split
          · split
            · refine Res.bind_ne_oof (checkInits_ne_oof _) fun _ _ => ?_
              split
              · exact checkSeq_ne_oof _
              · simp
            · simp
          · simp
        · simp
      · split
        · split <;> simp
        · split
          · split
            · exact check_ne_oof _
            · simp
          · split
            · split
              · exact Res.bind_ne_oof (check_ne_oof _) fun _ _ => Res.bind_ne_oof (check_ne_oof _) fun _ _ => check_ne_oof _
              · simp
            · split
              · split
                · split
                  · split
                    · exact checkSeq_ne_oof _
                    · simp
                  · simp
                · simp
              · split
                · exact checkClauses_ne_oof _
                · split
                  · split
                    · exact checkSeq_ne_oof _
                    · simp
                  · split
                    · exact checkArgs_ne_oof _
                    · simp

theorem checkSeq_ne_oof : ∀ x, checkSeq x ≠ .oof
  | .null => by simp [checkSeq]
  | .sym _ => by simp [checkSeq]
  | .lit _ => by simp [checkSeq]
  | .other _ => by simp [checkSeq]
  | .cons e .null => by rw [checkSeq]; exact check_ne_oof e
  | .cons e (.cons e' r) => by rw [checkSeq]; exact Res.bind_ne_oof (check_ne_oof e) fun _ _ => checkSeq_ne_oof _
  | .cons e (.sym _) => by simp only [checkSeq]; exact Res.bind_ne_oof (check_ne_oof e) fun _ _ => by simp
  | .cons e (.lit _) => by simp only [checkSeq]; exact Res.bind_ne_oof (check_ne_oof e) fun _ _ => by simp
  | .cons e (.other _) => by simp only [checkSeq]; exact Res.bind_ne_oof (check_ne_oof e) fun _ _ => by simp

theorem checkArgs_ne_oof : ∀ x, checkArgs x ≠ .oof
  | .null => by simp [checkArgs]
  | .sym _ => by simp [checkArgs]
  | .lit _ => by simp [checkArgs]
  | .other _ => by simp [checkArgs]
  | .cons e r => by rw [checkArgs]; exact Res.bind_ne_oof (check_ne_oof e) fun _ _ => checkArgs_ne_oof r

theorem checkInits_ne_oof : ∀ x, checkInits x ≠ .oof
  | .null => by simp [checkInits]
  | .sym _ => by simp [checkInits]
  | .lit _ => by simp [checkInits]
  | .other _ => by simp [checkInits]
  | .cons b bs => by
    rw [checkInits.eq_def]
    dsimp only
    split
    · exact Res.bind_ne_oof (check_ne_oof _) fun _ _ => checkInits_ne_oof bs
    · simp

theorem checkClauses_ne_oof : ∀ x, checkClauses x ≠ .oof
  | .null => by simp [checkClauses]
  | .sym _ => by simp [checkClauses]
  | .lit _ => by simp [checkClauses]
  | .other _ => by simp [checkClauses]
  | .cons c cs => by
    rw [checkClauses.eq_def]
    dsimp only
    split
    · split
      · refine Res.bind_ne_oof ?_ fun _ _ => checkClauses_ne_oof cs
        split
        · exact checkSeq_ne_oof _
        · simp
      · simp
    · simp

end

/-- C45, rejection as far as it goes: where no `begin`, `lambda` or `case-lambda` lacks its parts, checking is defined: an expression
is accepted or rejected with a syntax error, and it is rejected whenever it does not belong to the grammar with free operators.
Missing from the property: see `C45_negated_ub`, `C45_negated_operator`. -/
theorem C45_rejects_partial (x : X) (h : Shaped x) : (check x = .ok () ∧ Gen false x) ∨ (check x = .err ∧ ¬ Core x) := by
  have h1 := check_noub _ x (Nat.le_refl _) h
  have h2 : check x ≠ .oof := check_ne_oof x
  cases hc : check x with
  | ok u => exact .inl ⟨rfl, (C45_exact x).1 hc⟩
  | err => exact .inr ⟨rfl, fun hg => by rw [C45_accepts x hg] at hc; cases hc⟩
  | ub => exact absurd hc h1
  | oof => exact absurd hc h2

theorem sub_cons (y a d : X) : Sub y (.cons a d) ↔ y = .cons a d ∨ Sub y a ∨ Sub y d := by
  constructor
  · intro h
    cases h with
    | refl => exact .inl rfl
    | car _ _ h => exact .inr (.inl h)
    | cdr _ _ h => exact .inr (.inr h)
  · rintro (rfl | h | h)
    · exact .refl _
    · exact .car _ _ _ h
    · exact .cdr _ _ _ h

theorem sub_sym (a d : X) (s : Sym) : ¬ Sub (.cons a d) (.sym s) := fun h => by cases h
theorem sub_lit (a d : X) (l : Lit) : ¬ Sub (.cons a d) (.lit l) := fun h => by cases h
theorem sub_null (a d : X) : ¬ Sub (.cons a d) .null := fun h => by cases h

example : Shaped (ofList [.sym .lambda, ids [.user 0], ofList [.sym .ifS, .lit (.const 1)]]) ∧
    check (ofList [.sym .lambda, ids [.user 0], ofList [.sym .ifS, .lit (.const 1)]]) = .err := by
  refine ⟨⟨?_, ?_, ?_⟩, by decide⟩ <;> intro r h <;>
    simp [ofList, ids, sub_cons, sub_sym, sub_lit, sub_null] at h
  subst h
  exact ⟨_, _, rfl, by simp⟩

end Minim.Chk

import Verif.Load

set_option autoImplicit false
set_option linter.unusedSectionVars false

/-!
# Lemmas on the module loader
-/

namespace Minim.Load

open Minim.Path Minim.Str

/-! ### paths -/

theorem compsGo_comps : ∀ (t cur : List Byte), 47#8 ∉ cur → Comps (cur ++ t) (compsGo t cur)
  | [], [], _ => .nil
  | [], c :: cur, h => by rw [compsGo, List.append_nil]; exact .last ⟨by simp, h⟩
  | b :: t, [], h => by
    rw [compsGo]
    split
    · next hb => subst hb; exact .root (compsGo_comps t [] (by simp))
    · next hb => exact compsGo_comps t [b] (by simpa using fun h => hb h.symm)
  | b :: t, c :: cur, h => by
    rw [compsGo]
    split
    · next hb => subst hb; exact .name ⟨by simp, h⟩ (compsGo_comps t [] (by simp))
    · next hb =>
      have := compsGo_comps t (c :: cur ++ [b]) (by
        intro hm
        rcases List.mem_append.1 hm with hm | hm
        · exact h hm
        · exact hb (List.mem_singleton.1 hm).symm)
      simpa using this

theorem join_head : ∀ (ps : List (List Byte)) (a : List Byte), a ≠ [] → (join a ps).head? = a.head?
  | [], a, _ => by rw [join]
  | [] :: ps, a, h => by rw [join]; exact join_head ps a h
  | (c :: p) :: ps, a, h => by
    rw [join]
    cases a with
    | nil => exact absurd rfl h
    | cons x a =>
      split
      · rw [join_head ps _ (by simp)]; rfl
      · rw [join_head ps _ (by simp)]; rfl

/-- the path begins with a separator -/
def Abs (p : Path) : Prop := p.head? = some 47#8

theorem sibling_abs {p q : Path} {name : List Byte} (h : Abs p) (hs : sibling p name = some q) : Abs q := by
  unfold sibling at hs
  split at hs
  · cases hs
  · next d hd hdir =>
    cases hs
    unfold dirOf at hdir
    split at hdir
    · next a b rest hc =>
      cases hdir
      cases p with
      | nil => simp [Abs] at h
      | cons x p =>
        simp only [Abs, List.head?_cons, Option.some.injEq] at h
        subst h
        rw [compsGo, if_pos rfl] at hc
        have ha : a = [47#8] := (List.cons.inj hc).1.symm
        subst ha
        unfold Abs
        rw [join_head _ _ (by intro hn; exact hd hn), join_head _ _ (by simp)]
        rfl
    · cases hdir
  · cases hs

theorem resolve_abs {cwd p : Path} (h : Abs p) : resolve cwd p = p := by unfold Abs at h; rw [resolve, if_pos h]

theorem abs_resolve {cwd : Path} (h : Abs cwd) (p : Path) : Abs (resolve cwd p) := by
  unfold resolve
  split
  · assumption
  · unfold Abs
    rw [join_head _ _ (by intro hn; rw [hn] at h; simp [Abs] at h)]
    exact h

/-! ### finite maps -/

section

variable {A B : Type} [DecidableEq A]

theorem get_append (k : A) : ∀ (xs ys : List (A × B)), get k (xs ++ ys) = (get k xs).or (get k ys)
  | [], ys => by simp [get]
  | (a, b) :: xs, ys => by
    rw [List.cons_append, get, get]
    split
    · rfl
    · exact get_append k xs ys

theorem get_none {k : A} : ∀ {xs : List (A × B)}, get k xs = none ↔ ∀ b, (k, b) ∉ xs
  | [] => by simp [get]
  | (a, b) :: xs => by
    rw [get]
    split
    · next h => subst h; simp; exact ⟨b, by simp⟩
    · next h =>
      rw [get_none]
      refine forall_congr' fun c => ?_
      simp only [List.mem_cons, Prod.mk.injEq, not_or]
      exact ⟨fun h' => ⟨fun h'' => h h''.1.symm, h'⟩, fun h' => h'.2⟩

theorem get_mem {k : A} {b : B} : ∀ {xs : List (A × B)}, get k xs = some b → (k, b) ∈ xs
  | [], h => by cases h
  | (a, b') :: xs, h => by
    rw [get] at h
    split at h
    · next ha => subst ha; cases h; simp
    · exact List.mem_cons_of_mem _ (get_mem h)

/-- one value for each name -/
def Fn (xs : List (A × B)) : Prop := ∀ k b b', (k, b) ∈ xs → (k, b') ∈ xs → b = b'

theorem get_reverse {xs : List (A × B)} (h : Fn xs) (k : A) : get k xs.reverse = get k xs := by
  cases h1 : get k xs with
  | none =>
    rw [get_none] at h1 ⊢
    simpa using h1
  | some b =>
    cases h2 : get k xs.reverse with
    | none =>
      rw [get_none] at h2
      exact absurd (get_mem h1) (by simpa using h2 b)
    | some b' => rw [h k b b' (get_mem h1) (by simpa using get_mem h2)]

theorem get_mergeX (k : A) : ∀ (new xs : List (A × B)), get k (mergeX xs new) = (get k xs).or (get k new)
  | [], xs => by simp [mergeX, get]
  | (a, b) :: new, xs => by
    rw [mergeX]
    simp only
    split
    · next h =>
      rw [get_mergeX k new xs, get]
      split
      · next ha => subst ha; obtain ⟨v, hv⟩ := Option.isSome_iff_exists.1 h; rw [hv]; rfl
      · rfl
    · next h =>
      rw [get_mergeX k new _, get, get]
      split
      · next ha => subst ha; have : get a xs = none := by simpa using h
                   rw [this]; rfl
      · rfl

theorem evalEnv_eq (k : A) : ∀ (xs : List (A × B)) (env : A → Option B), evalEnv env xs k = (get k xs.reverse).or (env k)
  | [], env => by simp [evalEnv, get]
  | (a, b) :: xs, env => by
    rw [evalEnv, evalEnv_eq k xs, List.reverse_cons, get_append, Option.or_assoc]
    congr 1
    simp only [get]
    by_cases h : a = k
    · subst h; simp
    · simp [h, Ne.symm h]

theorem firstOf_append (t : Path → Option (List (A × B))) (k : A) : ∀ ps qs, firstOf t k (ps ++ qs) = (firstOf t k ps).or (firstOf t k qs)
  | [], qs => by simp [firstOf]
  | p :: ps, qs => by
    rw [List.cons_append, firstOf, firstOf]
    split
    · rfl
    · exact firstOf_append t k ps qs

theorem firstOf_one (t : Path → Option (List (A × B))) (k : A) (p : Path) : firstOf t k [p] = (t p).bind (get k) := by
  rw [firstOf]
  split
  · next h => exact h.symm
  · next h => rw [h]; rfl

theorem firstOf_congr {t t' : Path → Option (List (A × B))} (k : A) : ∀ ps, (∀ p ∈ ps, t p = t' p) → firstOf t k ps = firstOf t' k ps
  | [], _ => rfl
  | p :: ps, h => by rw [firstOf, firstOf, h p (by simp), firstOf_congr k ps fun p hp => h p (by simp [hp])]

end

/-! ### the state -/

variable {K F X V W : Type} [DecidableEq K]

/-- the values a module exports -/
def St.valsOf (st : St K F X V W) (p : Path) : Option (List (K × V)) := (get p st.table).map Exports.vals

/-- the macros a module exports -/
def St.xformsOf (st : St K F X V W) (p : Path) : Option (List (K × X)) := (get p st.table).map Exports.xforms

/-- each module once, after all those it imports -/
inductive Ordered (files : Path → Option (List (Item K F))) : List Path → Prop where
  | nil : Ordered files []
  | snoc {l : List Path} {p : Path} : Ordered files l → p ∉ l → (∀ q ∈ impsOf files p, q ∈ l) → Ordered files (l ++ [p])

/-- the modules that are exported again are there -/
def AllOk (cur : Path) (st : St K F X V W) (es : List (Exp K)) : Prop := ∀ name, Exp.all name ∈ es → ∃ q, sibling cur name = some q ∧ (get q st.table).isSome

/-- what a module was run with -/
structure RunOk (L : Lang K F X V W) (files : Path → Option (List (Item K F))) (st : St K F X V W) (r : Run K F X V) : Prop where
  forms : r.forms = formsOf files r.path
  env : ∀ k, r.env k = (firstOf st.valsOf k (impsOf files r.path)).or (L.base k)
  xforms : ∀ k, get k r.xforms = firstOf st.xformsOf k (impsOf files r.path)
  exps : ∃ m, get r.path st.table = some m ∧ (∀ k v, (k, v) ∈ m.vals ↔ Listed files r.path st k ∧ get k r.macros = none ∧ r.final k = some v) ∧
    (∀ k x, (k, x) ∈ m.xforms ↔ Listed files r.path st k ∧ get k r.macros = some x) ∧ ∀ k, Listed files r.path st k → (get k r.macros).isSome ∨ (r.final k).isSome
  alls : ∀ items es, files r.path = some items → Item.exp es ∈ items → AllOk r.path st es
  ran : ∃ w0 fs se w1 w2, L.expand r.path r.forms r.xforms (L.stx r.env) w0 = .ok (fs, r.macros, se, w1) ∧ L.eval fs r.env w1 = .ok (r.final, w2) ∧ get r.path st.envs = some (se, r.final)

/-- invariant of the loader -/
structure Inv (L : Lang K F X V W) (files : Path → Option (List (Item K F))) (st : St K F X V W) : Prop where
  keys : ∀ q, (get q st.table).isSome ↔ q ∈ st.log.map Run.path
  order : Ordered files (st.log.map Run.path)
  fn : ∀ q m, get q st.table = some m → Fn m.vals
  runs : ∀ r ∈ st.log, RunOk L files st r

/-- modules are only added -/
structure Ext (R : Path → Prop) (st st' : St K F X V W) : Prop where
  table : ∀ q m, get q st.table = some m → get q st'.table = some m
  log : ∃ new, st'.log = st.log ++ new ∧ ∀ r ∈ new, R r.path
  envs : ∀ q, (get q st.table).isSome → get q st'.envs = get q st.envs

theorem Ext.refl {R : Path → Prop} (st : St K F X V W) : Ext R st st := ⟨fun _ _ h => h, ⟨[], by simp, by simp⟩, fun _ _ => rfl⟩

theorem Ext.trans {R : Path → Prop} {a b c : St K F X V W} (h : Ext R a b) (h' : Ext R b c) : Ext R a c := by
  refine ⟨fun q m hq => h'.table q m (h.table q m hq), ?_, fun q hq => ?_⟩
  rotate_left
  · obtain ⟨m, hm⟩ := Option.isSome_iff_exists.1 hq
    rw [h'.envs q (by rw [h.table q m hm]; rfl), h.envs q hq]
  obtain ⟨x, hx, hx'⟩ := h.log
  obtain ⟨y, hy, hy'⟩ := h'.log
  refine ⟨x ++ y, by rw [hy, hx, List.append_assoc], fun r hr => ?_⟩
  rcases List.mem_append.1 hr with hr | hr
  · exact hx' r hr
  · exact hy' r hr

theorem Ext.mono {R R' : Path → Prop} {a b : St K F X V W} (h : Ext R a b) (hR : ∀ p, R p → R' p) : Ext R' a b :=
  ⟨h.table, h.log.imp fun _ h => ⟨h.1, fun r hr => hR _ (h.2 r hr)⟩, h.envs⟩

theorem Ext.mem {R : Path → Prop} {a b : St K F X V W} (h : Ext R a b) {p : Path} (hp : (get p a.table).isSome) : (get p b.table).isSome := by
  obtain ⟨m, hm⟩ := Option.isSome_iff_exists.1 hp
  rw [h.table p m hm]; rfl

theorem Ext.eq {R : Path → Prop} {a b : St K F X V W} (h : Ext R a b) {p : Path} (hp : (get p a.table).isSome) : get p b.table = get p a.table := by
  obtain ⟨m, hm⟩ := Option.isSome_iff_exists.1 hp
  rw [h.table p m hm, hm]

theorem AllOk.ext {R : Path → Prop} {a b : St K F X V W} (h : Ext R a b) {cur : Path} {es : List (Exp K)} (hs : AllOk cur a es) : AllOk cur b es :=
  fun name hn => (hs name hn).imp fun _ hq => ⟨hq.1, h.mem hq.2⟩

theorem exporting_ext {R : Path → Prop} {a b : St K F X V W} (h : Ext R a b) {cur : Path} {es : List (Exp K)} (hs : AllOk cur a es) {e : Exp K} (he : e ∈ es) (k : K) : Exporting cur a k e ↔ Exporting cur b k e := by
  cases e with
  | sym _ => exact Iff.rfl
  | bad => exact Iff.rfl
  | all name =>
    obtain ⟨q, hq, hl⟩ := hs name he
    have := h.eq hl
    constructor
    · rintro ⟨q', m, h1, h2, h3⟩; exact ⟨q', m, h1, h.table _ _ h2, h3⟩
    · rintro ⟨q', m, h1, h2, h3⟩
      rw [hq] at h1; cases h1
      exact ⟨q, m, hq, by rw [← this]; exact h2, h3⟩

variable {L : Lang K F X V W} {files : Path → Option (List (Item K F))} {cwd : Path}

theorem listed_ext {R : Path → Prop} {a b : St K F X V W} (h : Ext R a b) {p : Path} (hs : ∀ items es, files p = some items → Item.exp es ∈ items → AllOk p a es) (k : K) : Listed files p a k ↔ Listed files p b k := by
  constructor
  · rintro ⟨items, es, e, h1, h2, h3, h4⟩; exact ⟨items, es, e, h1, h2, h3, (exporting_ext h (hs _ _ h1 h2) h3 k).1 h4⟩
  · rintro ⟨items, es, e, h1, h2, h3, h4⟩; exact ⟨items, es, e, h1, h2, h3, (exporting_ext h (hs _ _ h1 h2) h3 k).2 h4⟩

theorem Ordered.acc {l : List Path} (h : Ordered files l) : ∀ p ∈ l, Acc (fun b a => Imports files a b) p := by
  induction h with
  | nil => simp
  | snoc _ _ hi ih =>
    intro q hq
    rcases List.mem_append.1 hq with hq | hq
    · exact ih q hq
    · rw [List.mem_singleton.1 hq]
      exact .intro _ fun r hr => ih r (hi r hr)

theorem Ordered.imps {l : List Path} (h : Ordered files l) : ∀ p ∈ l, ∀ q, Imports files p q → q ∈ l := by
  induction h with
  | nil => simp
  | snoc _ _ hi ih =>
    intro p hp q hq
    rcases List.mem_append.1 hp with hp | hp
    · exact List.mem_append_left _ (ih p hp q hq)
    · rw [List.mem_singleton.1 hp] at hq
      exact List.mem_append_left _ (hi q hq)

theorem Ordered.reach {l : List Path} (h : Ordered files l) {p q : Path} (hp : p ∈ l) (hr : Reach files p q) : q ∈ l := by
  induction hr with
  | refl => exact hp
  | step _ hi ih => exact h.imps _ ih _ hi

theorem Ordered.nodup {l : List Path} (h : Ordered files l) : l.Nodup := by
  induction h with
  | nil => simp
  | snoc _ hn _ ih => exact List.nodup_append.2 ⟨ih, by simp, fun a ha b hb => by rw [List.mem_singleton.1 hb]; exact fun h => hn (h ▸ ha)⟩

theorem Ordered.split {l : List Path} (h : Ordered files l) : ∀ {a b : List Path} {p : Path}, l = a ++ p :: b → ∀ q, Imports files p q → q ∈ a := by
  induction h with
  | nil => intro a b p h; simp at h
  | @snoc l x _ _ hi ih =>
    intro a b p he q hq
    rcases List.eq_nil_or_concat b with rfl | ⟨b', y, rfl⟩
    · have := List.append_inj' he rfl
      simp only [List.cons.injEq, and_true] at this
      rw [← this.1]; rw [← this.2] at hq; exact hi q hq
    · have : l ++ [x] = (a ++ p :: b') ++ [y] := by simpa using he
      have := (List.append_inj' this rfl).1
      exact ih this q hq

theorem reach_trans {p q r : Path} (h : Reach files p q) (h' : Reach files q r) : Reach files p r := by
  induction h' with
  | refl => exact h
  | step _ hi ih => exact .step ih hi

theorem reach_head {p q r : Path} (h : Imports files p q) (h' : Reach files q r) : Reach files p r := reach_trans (.step .refl h) h'

/-- no way back -/
theorem acc_cycle {p : Path} (h : Acc (fun b a => Imports files a b) p) : ∀ q, Imports files p q → ¬ Reach files q p := by
  have key : ∀ {a b : Path}, Reach files a b → a = b ∨ Relation.TransGen (fun b a => Imports files a b) b a := by
    intro a b h
    induction h with
    | refl => exact .inl rfl
    | step _ hi ih =>
      rcases ih with rfl | ih
      · exact .inr (.single hi)
      · exact .inr (.head hi ih)
  intro q hq hr
  have hc : Relation.TransGen (fun b a => Imports files a b) p p := by
    rcases key hr with rfl | h'
    · exact .single hq
    · exact h'.tail hq
  have := Acc.transGen h
  have irr : ∀ x, Acc (Relation.TransGen (fun b a => Imports files a b)) x → ¬ Relation.TransGen (fun b a => Imports files a b) x x := by
    intro x hx
    induction hx with
    | intro x _ ih => exact fun h => ih x h h
  exact irr p this hc

/-! ### the import phase -/

/-- what `$load-or-import` does -/
def LdOk (L : Lang K F X V W) (files : Path → Option (List (Item K F))) (ld : Path → St K F X V W → Res (St K F X V W)) : Prop :=
  ∀ p st st', Abs p → Inv L files st → ld p st = .ok st' → Inv L files st' ∧ Ext (Reach files p) st st' ∧ (get p st'.table).isSome

/-- the variables of `$load-module` after the imports `ps` -/
structure LocOk (l : Loc K F X V) (ps : List Path) (st : St K F X V W) : Prop where
  vals : ∀ k, get k l.imported.reverse = firstOf st.valsOf k ps
  xforms : ∀ k, get k l.xforms = firstOf st.xformsOf k ps
  loaded : ∀ p ∈ ps, (get p st.table).isSome

theorem LocOk.ext {R : Path → Prop} {l : Loc K F X V} {ps : List Path} {st st' : St K F X V W} (h : LocOk l ps st) (he : Ext R st st') : LocOk l ps st' := by
  refine ⟨fun k => ?_, fun k => ?_, fun p hp => he.mem (h.loaded p hp)⟩
  · rw [h.vals]; exact firstOf_congr k ps fun p hp => by rw [St.valsOf, St.valsOf, he.eq (h.loaded p hp)]
  · rw [h.xforms]; exact firstOf_congr k ps fun p hp => by rw [St.xformsOf, St.xformsOf, he.eq (h.loaded p hp)]

theorem imp_ok {ld : Path → St K F X V W → Res (St K F X V W)} (hl : LdOk L files ld) {cur : Path} (hc : Abs cur) : ∀ (names : List (Option (List Byte))) (l l' : Loc K F X V) (st st' : St K F X V W) (ps : List Path),
    Inv L files st → LocOk l ps st → impLoop ld cur names l st = .ok (l', st') →
    Inv L files st' ∧ Ext (fun p => ∃ q, q ∈ names.filterMap (fun n => n.bind (sibling cur)) ∧ Reach files q p) st st' ∧ LocOk l' (ps ++ names.filterMap fun n => n.bind (sibling cur)) st' ∧ l'.forms = l.forms ∧ l'.exported = l.exported
  | [], l, l', st, st', ps, hi, ho, h => by rw [impLoop] at h; cases h; exact ⟨hi, .refl _, by simpa using ho, rfl, rfl⟩
  | none :: _, l, l', st, st', ps, hi, ho, h => by rw [impLoop] at h; cases h
  | some name :: names, l, l', st, st', ps, hi, ho, h => by
    rw [impLoop] at h
    cases hs : sibling cur name with
    | none => rw [hs] at h; cases h
    | some path =>
      rw [hs] at h
      simp only at h
      obtain ⟨st1, h1, h⟩ := Res.bind_eq_ok.1 h
      obtain ⟨i1, e1, m1⟩ := hl path st st1 (sibling_abs hc hs) hi h1
      obtain ⟨m, hm⟩ := Option.isSome_iff_exists.1 m1
      rw [hm] at h
      simp only at h
      have ho := ho.ext e1
      have ho2 : LocOk { l with modules := path :: l.modules, xforms := mergeX l.xforms m.xforms, imported := m.vals ++ l.imported } (ps ++ [path]) st1 := by
        refine ⟨fun k => ?_, fun k => ?_, fun p hp => ?_⟩
        · rw [List.reverse_append, get_append, firstOf_append, ho.vals, get_reverse (i1.fn _ _ hm), firstOf_one, St.valsOf, hm]; rfl
        · rw [get_mergeX, firstOf_append, ho.xforms, firstOf_one, St.xformsOf, hm]; rfl
        · rcases List.mem_append.1 hp with hp | hp
          · exact ho.loaded p hp
          · rw [List.mem_singleton.1 hp]; exact m1
      obtain ⟨i2, e2, o2, f2⟩ := imp_ok hl hc names _ _ _ _ _ i1 ho2 h
      refine ⟨i2, (e1.mono fun p hp => ⟨path, by simp [hs], hp⟩).trans (e2.mono ?_), ?_, f2⟩
      · rintro p ⟨q, hq, hr⟩
        refine ⟨q, ?_, hr⟩
        rw [List.filterMap_cons]
        simp only [Option.bind_some, hs]
        exact List.mem_cons_of_mem _ hq
      · have : (some name :: names).filterMap (fun n => n.bind (sibling cur)) = path :: names.filterMap fun n => n.bind (sibling cur) := by
          rw [List.filterMap_cons]; simp only [Option.bind_some, hs]
        rw [this]
        simpa using o2

theorem exp_ok {cur : Path} {st : St K F X V W} : ∀ (es : List (Exp K)) (l l' : Loc K F X V), expLoop cur st es l = .ok l' →
    (l'.imported = l.imported ∧ l'.xforms = l.xforms ∧ l'.forms = l.forms) ∧ AllOk cur st es ∧ ∀ k, k ∈ l'.exported ↔ k ∈ l.exported ∨ ∃ e ∈ es, Exporting cur st k e
  | [], l, l', h => by rw [expLoop] at h; cases h; exact ⟨⟨rfl, rfl, rfl⟩, fun _ h => (by cases h), fun k => by simp⟩
  | .sym k :: es, l, l', h => by
    rw [expLoop] at h
    obtain ⟨h1, h2, h3⟩ := exp_ok es { l with exported := k :: l.exported } _ h
    refine ⟨h1, fun name hn => ?_, fun x => ?_⟩
    · rcases List.mem_cons.1 hn with hn | hn
      · cases hn
      · exact h2 name hn
    · rw [h3]
      simp only [List.mem_cons, exists_eq_or_imp, Exporting]
      rw [← or_assoc, eq_comm (a := x), or_comm (a := k = x)]
  | .all name :: es, l, l', h => by
    rw [expLoop] at h
    split at h
    · cases h
    · next path hp =>
      split at h
      · split at h
        · cases h
        · next m hm =>
          obtain ⟨h1, h2, h3⟩ := exp_ok es { l with exported := m.xforms.map Prod.fst ++ m.vals.map Prod.fst ++ l.exported } _ h
          refine ⟨h1, fun name' hn => ?_, fun x => ?_⟩
          · rcases List.mem_cons.1 hn with hn | hn
            · cases hn; exact ⟨path, hp, by rw [hm]; rfl⟩
            · exact h2 name' hn
          · rw [h3]
            have : Exporting cur st x (.all name) ↔ x ∈ m.xforms.map Prod.fst ∨ x ∈ m.vals.map Prod.fst := by
              constructor
              · rintro ⟨q, m', k1, k2, k3⟩
                rw [hp] at k1; cases k1
                rw [hm] at k2; cases k2
                exact k3
              · exact fun k => ⟨path, m, hp, hm, k⟩
            simp only [List.mem_cons, exists_eq_or_imp, List.mem_append, this]
            rw [← or_assoc, or_comm (b := x ∈ l.exported)]
      · cases h
  | .bad :: es, l, l', h => by rw [expLoop] at h; cases h

/-- the imports of the forms, in order -/
def itemImps (cur : Path) (is : List (Item K F)) : List Path := (is.flatMap fun i => match i with | .imp ns => ns | _ => []).filterMap fun n => n.bind (sibling cur)

/-- the forms that are neither imports nor exports -/
def itemForms (is : List (Item K F)) : List F := is.filterMap fun i => match i with | .form f => some f | _ => none

theorem items_ok {ld : Path → St K F X V W → Res (St K F X V W)} (hl : LdOk L files ld) {cur : Path} (hc : Abs cur) : ∀ (is : List (Item K F)) (l l' : Loc K F X V) (st st' : St K F X V W) (ps : List Path),
    Inv L files st → LocOk l ps st → itemLoop ld cur is l st = .ok (l', st') →
    Inv L files st' ∧ Ext (fun p => ∃ q, q ∈ itemImps cur is ∧ Reach files q p) st st' ∧ LocOk l' (ps ++ itemImps cur is) st' ∧ l'.forms = l.forms.reverse ++ itemForms is ∧
      (∀ es, Item.exp es ∈ is → AllOk cur st' es) ∧ ∀ k, k ∈ l'.exported ↔ k ∈ l.exported ∨ ∃ es, Item.exp es ∈ is ∧ ∃ e ∈ es, Exporting cur st' k e
  | [], l, l', st, st', ps, hi, ho, h => by
    rw [itemLoop] at h; cases h
    exact ⟨hi, .refl _, by simpa [itemImps] using ⟨ho.vals, ho.xforms, ho.loaded⟩, by simp [itemForms], fun _ h => (by cases h), fun k => by simp⟩
  | .imp ns :: is, l, l', st, st', ps, hi, ho, h => by
    rw [itemLoop] at h
    obtain ⟨⟨l1, st1⟩, h1, h2⟩ := Res.bind_eq_ok.1 h
    obtain ⟨i1, e1, o1, f1, x1⟩ := imp_ok hl hc ns _ _ _ _ _ hi ho h1
    obtain ⟨i2, e2, o2, f2, a2, x2⟩ := items_ok hl hc is _ _ _ _ _ i1 o1 h2
    have heq : itemImps cur (.imp ns :: is) = ns.filterMap (fun n => n.bind (sibling cur)) ++ itemImps cur is := by simp [itemImps]
    rw [heq]
    refine ⟨i2, (e1.mono ?_).trans (e2.mono ?_), by simpa using o2, by rw [f2, f1]; simp [itemForms], fun es he => a2 es (by simpa using he), fun k => ?_⟩
    · rintro p ⟨q, hq, hr⟩; exact ⟨q, List.mem_append_left _ hq, hr⟩
    · rintro p ⟨q, hq, hr⟩; exact ⟨q, List.mem_append_right _ hq, hr⟩
    · rw [x2, x1]; simp
  | .exp es :: is, l, l', st, st', ps, hi, ho, h => by
    rw [itemLoop] at h
    obtain ⟨l1, h1, h2⟩ := Res.bind_eq_ok.1 h
    obtain ⟨⟨x1, x2, x3⟩, a1, x4⟩ := exp_ok _ _ _ h1
    obtain ⟨i2, e2, o2, f2, a2, x5⟩ := items_ok hl hc is _ _ _ _ ps hi ⟨by rw [x1]; exact ho.vals, by rw [x2]; exact ho.xforms, ho.loaded⟩ h2
    have heq : itemImps cur (.exp es :: is) = itemImps cur is := by simp [itemImps]
    rw [heq]
    refine ⟨i2, e2, o2, by rw [f2, x3]; simp [itemForms], fun es' he => ?_, fun k => ?_⟩
    · rcases List.mem_cons.1 he with he | he
      · cases he; exact a1.ext e2
      · exact a2 es' he
    · rw [x5, x4]
      simp only [List.mem_cons, Item.exp.injEq, or_and_right, exists_or, exists_eq_left, or_assoc]
      have : (∃ e ∈ es, Exporting cur st k e) ↔ ∃ e ∈ es, Exporting cur st' k e := by
        constructor
        · rintro ⟨e, he, hx⟩; exact ⟨e, he, (exporting_ext e2 a1 he k).1 hx⟩
        · rintro ⟨e, he, hx⟩; exact ⟨e, he, (exporting_ext e2 a1 he k).2 hx⟩
      rw [this]
  | .form f :: is, l, l', st, st', ps, hi, ho, h => by
    rw [itemLoop] at h
    obtain ⟨i2, e2, o2, f2, a2, x2⟩ := items_ok hl hc is { l with forms := f :: l.forms } _ _ _ ps hi ⟨ho.vals, ho.xforms, ho.loaded⟩ h
    have heq : itemImps cur (.form f :: is) = itemImps cur is := by simp [itemImps]
    rw [heq]
    exact ⟨i2, e2, o2, by rw [f2]; simp [itemForms], fun es he => a2 es (by simpa using he), fun k => by rw [x2]; simp⟩

theorem exports_ok {xf : List (K × X)} {env : K → Option V} : ∀ (ks : List K) (m m' : Exports K X V), exports xf env ks m = .ok m' →
    (∀ k v, (k, v) ∈ m'.vals ↔ (k, v) ∈ m.vals ∨ k ∈ ks ∧ get k xf = none ∧ env k = some v) ∧ (∀ k x, (k, x) ∈ m'.xforms ↔ (k, x) ∈ m.xforms ∨ k ∈ ks ∧ get k xf = some x) ∧
    ∀ k ∈ ks, (get k xf).isSome ∨ (env k).isSome
  | [], m, m', h => by rw [exports] at h; cases h; simp
  | k :: ks, m, m', h => by
    rw [exports] at h
    split at h
    · next x hx =>
      obtain ⟨h1, h2, h3⟩ := exports_ok ks _ _ h
      refine ⟨fun k' v => ?_, fun k' y => ?_, fun k' hk => ?_⟩
      · rw [h1]
        refine or_congr Iff.rfl ⟨fun h => ⟨List.mem_cons_of_mem _ h.1, h.2⟩, fun h => ?_⟩
        rcases List.mem_cons.1 h.1 with rfl | hk
        · rw [hx] at h; cases h.2.1
        · exact ⟨hk, h.2⟩
      · rw [h2]
        simp only [List.mem_cons, Prod.mk.injEq]
        constructor
        · rintro ((⟨rfl, rfl⟩ | h) | h)
          · exact .inr ⟨.inl rfl, hx⟩
          · exact .inl h
          · exact .inr ⟨.inr h.1, h.2⟩
        · rintro (h | ⟨rfl | h, h'⟩)
          · exact .inl (.inr h)
          · rw [hx] at h'; cases h'; exact .inl (.inl ⟨rfl, rfl⟩)
          · exact .inr ⟨h, h'⟩
      · rcases List.mem_cons.1 hk with rfl | hk
        · exact .inl (by rw [hx]; rfl)
        · exact h3 k' hk
    · next hx =>
      split at h
      · next v hv =>
        obtain ⟨h1, h2, h3⟩ := exports_ok ks _ _ h
        refine ⟨fun k' y => ?_, fun k' y => ?_, fun k' hk => ?_⟩
        · rw [h1]
          simp only [List.mem_cons, Prod.mk.injEq]
          constructor
          · rintro ((⟨rfl, rfl⟩ | h) | h)
            · exact .inr ⟨.inl rfl, hx, hv⟩
            · exact .inl h
            · exact .inr ⟨.inr h.1, h.2⟩
          · rintro (h | ⟨rfl | h, h'⟩)
            · exact .inl (.inr h)
            · have := h'.2; rw [hv] at this; cases this; exact .inl (.inl ⟨rfl, rfl⟩)
            · exact .inr ⟨h, h'⟩
        · rw [h2]
          refine or_congr Iff.rfl ⟨fun h => ⟨List.mem_cons_of_mem _ h.1, h.2⟩, fun h => ?_⟩
          rcases List.mem_cons.1 h.1 with rfl | hk
          · rw [hx] at h; cases h.2
          · exact ⟨hk, h.2⟩
        · rcases List.mem_cons.1 hk with rfl | hk
          · exact .inr (by rw [hv]; rfl)
          · exact h3 k' hk
      · cases h

theorem RunOk.ext {R : Path → Prop} {st st' : St K F X V W} (he : Ext R st st') {r : Run K F X V} (h : RunOk L files st r) (hl : ∀ q ∈ impsOf files r.path, (get q st.table).isSome) : RunOk L files st' r := by
  obtain ⟨m, h1, h2, h3, h4⟩ := h.exps
  refine ⟨h.forms, fun k => ?_, fun k => ?_, ⟨m, he.table _ _ h1, fun k v => ?_, fun k x => ?_, fun k => ?_⟩, fun items es hi hm => (h.alls items es hi hm).ext he, ?_⟩
  · rw [h.env, firstOf_congr k _ fun q hq => ?_]
    rw [St.valsOf, St.valsOf, he.eq (hl q hq)]
  · rw [h.xforms, firstOf_congr k _ fun q hq => ?_]
    rw [St.xformsOf, St.xformsOf, he.eq (hl q hq)]
  · rw [h2, listed_ext he h.alls]
  · rw [h3, listed_ext he h.alls]
  · rw [← listed_ext he h.alls]; exact h4 k
  · obtain ⟨w0, fs, se, w1, w2, k1, k2, k3⟩ := h.ran
    exact ⟨w0, fs, se, w1, w2, k1, k2, by rw [he.envs _ (by rw [h1]; rfl)]; exact k3⟩

theorem new_ok {ld : Path → St K F X V W → Res (St K F X V W)} (hl : LdOk L files ld) {p : Path} (hp : Abs p) {st st' : St K F X V W} (hi : Inv L files st) (hn : get p st.table = none)
    (h : loadNew L files ld p st = .ok st') : Inv L files st' ∧ Ext (Reach files p) st st' ∧ (get p st'.table).isSome := by
  unfold loadNew at h
  cases hf : files p with
  | none => rw [hf] at h; cases h
  | some items =>
    rw [hf] at h
    simp only at h
    obtain ⟨⟨l, st1⟩, h1, h⟩ := Res.bind_eq_ok.1 h
    obtain ⟨⟨forms, xf, stxEnv, w⟩, h2, h⟩ := Res.bind_eq_ok.1 h
    obtain ⟨⟨env, w'⟩, h3, h⟩ := Res.bind_eq_ok.1 h
    obtain ⟨m, h4, h⟩ := Res.bind_eq_ok.1 h
    obtain ⟨i1, e1, o1, f1, a1, x1⟩ := items_ok hl hp items _ _ _ _ [] hi ⟨fun k => by simp [get, firstOf], fun k => by simp [get, firstOf], by simp⟩ h1
    have hps : itemImps p items = impsOf files p := by unfold impsOf; rw [hf]; rfl
    rw [hps, List.nil_append] at o1
    rw [hps] at e1
    have hnew : get p st1.table = none := by
      cases hg : get p st1.table with
      | none => rfl
      | some x =>
        exfalso
        have hin : p ∈ st1.log.map Run.path := (i1.keys p).1 (by rw [hg]; rfl)
        have hout : p ∉ st.log.map Run.path := fun h' => by have := (hi.keys p).2 h'; rw [hn] at this; cases this
        obtain ⟨new, hnew, hR⟩ := e1.log
        rw [hnew, List.map_append] at hin
        rcases List.mem_append.1 hin with hin | hin
        · exact hout hin
        · obtain ⟨r, hr, hrp⟩ := List.mem_map.1 hin
          obtain ⟨q, hq, hqr⟩ := hR r hr
          rw [hrp] at hqr
          exact acc_cycle (i1.order.acc p ((i1.keys p).1 (by rw [hg]; rfl))) q hq hqr
    have hnl : p ∉ st1.log.map Run.path := fun h' => by have := (i1.keys p).2 h'; rw [hnew] at this; cases this
    simp only [Res.ok.injEq] at h
    subst h
    have htab : ∀ q x, get q st1.table = some x → get q ((p, m) :: st1.table) = some x := by
      intro q x hq
      rw [get, if_neg ?_, hq]
      intro h'; subst h'; rw [hnew] at hq; cases hq
    have e2 : Ext (Reach files p) st1 ⟨(p, m) :: st1.table, (p, stxEnv, env) :: st1.envs, st1.log ++ [⟨p, l.forms, l.xforms, evalEnv L.base l.imported, xf, env⟩], w'⟩ :=
      ⟨htab, ⟨_, rfl, fun r hr => by rw [List.mem_singleton.1 hr]; exact .refl⟩, fun q hq => by rw [get, if_neg]; intro h'; subst h'; rw [hnew] at hq; cases hq⟩
    have o2 := o1.ext e2
    obtain ⟨v1, v2, v3⟩ := exports_ok _ _ _ h4
    have a2 : ∀ items' es, files p = some items' → Item.exp es ∈ items' → AllOk p st1 es := by
      intro items' es hf' he
      rw [hf] at hf'; cases hf'
      exact a1 es he
    have hlist : ∀ k, k ∈ l.exported ↔ Listed files p st1 k := by
      intro k
      rw [x1]
      simp only [List.not_mem_nil, false_or]
      constructor
      · rintro ⟨es, h1, e, h2, h3⟩; exact ⟨items, es, e, hf, h1, h2, h3⟩
      · rintro ⟨items', es, e, h0, h1, h2, h3⟩
        rw [hf] at h0; cases h0
        exact ⟨es, h1, e, h2, h3⟩
    refine ⟨⟨fun q => ?_, ?_, fun q x hq => ?_, fun r hr => ?_⟩, (e1.mono ?_).trans e2, by rw [get, if_pos rfl]; rfl⟩
    · rw [List.map_append, List.mem_append, ← i1.keys q, get]
      by_cases h' : p = q
      · subst h'; simp
      · rw [if_neg h']
        simp [Ne.symm h']
    · rw [List.map_append]
      exact .snoc i1.order hnl fun q hq => (i1.keys q).1 (o1.loaded q hq)
    · rw [get] at hq
      split at hq
      · cases hq
        intro k b b' hb hb'
        have x1 := (v1 _ _).1 hb
        have x2 := (v1 _ _).1 hb'
        simp only [List.not_mem_nil, false_or] at x1 x2
        have := x1.2.2; rw [x2.2.2] at this; cases this; rfl
      · exact i1.fn q x hq
    · rcases List.mem_append.1 hr with hr | hr
      · exact (i1.runs r hr).ext e2 fun q hq => (i1.keys q).2 (i1.order.imps _ (List.mem_map.2 ⟨r, hr, rfl⟩) q hq)
      · rw [List.mem_singleton.1 hr]
        refine ⟨?_, fun k => by show evalEnv L.base l.imported k = _; rw [evalEnv_eq, o2.vals], fun k => o2.xforms k, ⟨m, by rw [get, if_pos rfl], fun k v => ?_, fun k x => ?_, fun k hk => ?_⟩, fun items' es h1 h2 => (a2 items' es h1 h2).ext e2, ⟨_, _, _, _, _, h2, h3, by rw [get, if_pos rfl]⟩⟩
        · show l.forms = formsOf files p
          rw [f1]; unfold formsOf; rw [hf]; rfl
        · show _ ↔ Listed files p _ k ∧ get k xf = none ∧ env k = some v
          rw [v1, ← listed_ext e2 a2, hlist]; simp
        · show _ ↔ Listed files p _ k ∧ get k xf = some x
          rw [v2, ← listed_ext e2 a2, hlist]; simp
        · exact v3 k ((hlist k).2 ((listed_ext e2 a2 k).2 hk))
    · rintro q ⟨q', hq, hr⟩; exact reach_head hq hr

theorem load_ok (hcwd : Abs cwd) : ∀ (n : Nat) (name : Path) (st st' : St K F X V W), Inv L files st → load L files cwd n name st = .ok st' →
    Inv L files st' ∧ Ext (Reach files (resolve cwd name)) st st' ∧ (get (resolve cwd name) st'.table).isSome
  | 0, _, _, _, _, h => by rw [load] at h; cases h
  | n + 1, name, st, st', hi, h => by
    rw [load] at h
    split at h
    · next hs => cases h; exact ⟨hi, .refl _, hs⟩
    · next hs =>
      refine new_ok (fun p st st' hp hi h => ?_) (abs_resolve hcwd name) hi (by simpa using hs) h
      have := load_ok hcwd n p st st' hi h
      rwa [resolve_abs hp] at this

/-! ### termination -/

theorem imp_ne_oof {ld : Path → St K F X V W → Res (St K F X V W)} {cur : Path} : ∀ (names : List (Option (List Byte))) (l : Loc K F X V) (st : St K F X V W),
    (∀ q ∈ names.filterMap (fun n => n.bind (sibling cur)), ∀ st, ld q st ≠ .oof) → impLoop ld cur names l st ≠ .oof
  | [], l, st, _ => by rw [impLoop]; simp
  | none :: _, l, st, _ => by rw [impLoop]; simp
  | some name :: names, l, st, h => by
    rw [impLoop]
    split
    · simp
    · next path hs =>
      refine Res.bind_ne_oof (h path (by simp [hs]) st) fun st1 _ => ?_
      split
      · simp
      · exact imp_ne_oof names _ _ fun q hq => h q (by
          rw [List.filterMap_cons]; simp only [Option.bind_some, hs]; exact List.mem_cons_of_mem _ hq)

theorem exp_ne_oof {cur : Path} {st : St K F X V W} : ∀ (es : List (Exp K)) (l : Loc K F X V), expLoop cur st es l ≠ .oof
  | [], l => by rw [expLoop]; simp
  | .sym k :: es, l => by rw [expLoop]; exact exp_ne_oof es _
  | .all name :: es, l => by
    rw [expLoop]
    split
    · simp
    · split
      · split
        · simp
        · exact exp_ne_oof es _
      · simp
  | .bad :: es, l => by rw [expLoop]; simp

theorem items_ne_oof {ld : Path → St K F X V W → Res (St K F X V W)} {cur : Path} : ∀ (is : List (Item K F)) (l : Loc K F X V) (st : St K F X V W),
    (∀ q ∈ itemImps cur is, ∀ st, ld q st ≠ .oof) → itemLoop ld cur is l st ≠ .oof
  | [], l, st, _ => by rw [itemLoop]; simp
  | .imp ns :: is, l, st, h => by
    rw [itemLoop]
    refine Res.bind_ne_oof (imp_ne_oof ns l st fun q hq => h q (by simp only [itemImps, List.flatMap_cons, List.filterMap_append]; exact List.mem_append_left _ hq)) fun p _ => ?_
    exact items_ne_oof is _ _ fun q hq => h q (by simp only [itemImps, List.flatMap_cons, List.filterMap_append]; exact List.mem_append_right _ hq)
  | .exp es :: is, l, st, h => by
    rw [itemLoop]
    refine Res.bind_ne_oof (exp_ne_oof es l) fun p _ => ?_
    exact items_ne_oof is _ _ fun q hq => h q (by simpa [itemImps] using hq)
  | .form f :: is, l, st, h => by
    rw [itemLoop]
    exact items_ne_oof is _ _ fun q hq => h q (by simpa [itemImps] using hq)

theorem exports_ne_oof {xf : List (K × X)} {env : K → Option V} : ∀ (ks : List K) (m : Exports K X V), exports xf env ks m ≠ .oof
  | [], m => by rw [exports]; simp
  | k :: ks, m => by
    rw [exports]
    split
    · exact exports_ne_oof ks _
    · split
      · exact exports_ne_oof ks _
      · simp

theorem itemImps_eq {p : Path} {items : List (Item K F)} (hf : files p = some items) : itemImps p items = impsOf files p := by unfold impsOf; rw [hf]; rfl

/-- the language terminates -/
def Lang.Term (L : Lang K F X V W) : Prop := (∀ p fs xf env w, L.expand p fs xf env w ≠ .oof) ∧ ∀ fs env w, L.eval fs env w ≠ .oof

theorem load_term (hL : L.Term) {p : Path} (h : Acc (fun b a => Imports files a b) p) : Abs p → ∃ n0, ∀ n, n0 ≤ n → ∀ st, load L files cwd n p st ≠ .oof := by
  induction h with
  | intro p _ ih =>
    intro hp
    have hall : ∀ ps : List Path, (∀ q ∈ ps, q ∈ impsOf files p) → (∀ q ∈ ps, Abs q) → ∃ n0, ∀ n, n0 ≤ n → ∀ q ∈ ps, ∀ st, load L files cwd n q st ≠ .oof := by
      intro ps
      induction ps with
      | nil => exact fun _ _ => ⟨0, by simp⟩
      | cons q ps ihp =>
        intro h1 h2
        obtain ⟨n1, k1⟩ := ihp (fun q hq => h1 q (by simp [hq])) fun q hq => h2 q (by simp [hq])
        obtain ⟨n2, k2⟩ := ih q (h1 q (by simp)) (h2 q (by simp))
        refine ⟨max n1 n2, fun n hn r hr => ?_⟩
        rcases List.mem_cons.1 hr with rfl | hr
        · exact k2 n (by omega)
        · exact k1 n (by omega) r hr
    have habs : ∀ q ∈ impsOf files p, Abs q := by
      intro q hq
      unfold impsOf at hq
      split at hq
      · simp at hq
      · obtain ⟨nm, _, hnm⟩ := List.mem_filterMap.1 hq
        cases nm with
        | none => cases hnm
        | some nm => exact sibling_abs hp hnm
    obtain ⟨n0, h0⟩ := hall _ (fun _ h => h) habs
    refine ⟨n0 + 1, fun n hn st => ?_⟩
    obtain ⟨n, rfl⟩ : ∃ j, n = j + 1 := ⟨n - 1, by omega⟩
    rw [load, resolve_abs hp]
    split
    · simp
    · unfold loadNew
      split
      · simp
      · next items hf =>
        refine Res.bind_ne_oof (items_ne_oof items _ _ fun q hq => h0 n (by omega) q (by rwa [itemImps_eq hf] at hq)) fun r _ => ?_
        refine Res.bind_ne_oof (hL.1 _ _ _ _ _) fun r2 _ => ?_
        refine Res.bind_ne_oof (hL.2 _ _ _) fun r3 _ => ?_
        refine Res.bind_ne_oof (exports_ne_oof _ _) fun r4 _ => by simp

end Minim.Load

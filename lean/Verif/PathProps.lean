import Verif.Path
import Verif.StrProps
import Mathlib.Data.List.Forall2

set_option autoImplicit false

/-!
# Paths (C65)
-/

namespace Minim.Path

open Minim.Str (Heap Val Text)

/-! ### specification -/

/-- a name: not empty and without separator -/
def Name (e : List Byte) : Prop := e ≠ [] ∧ 47#8 ∉ e

/-- a path text and its components: a separator ends the name before it; a separator that ends no name is a component of its own -/
inductive Comps : List Byte → List (List Byte) → Prop where
  | nil : Comps [] []
  | last {e : List Byte} (h : Name e) : Comps e [e]
  | name {e t : List Byte} {ps : List (List Byte)} (h : Name e) (ht : Comps t ps) : Comps (e ++ 47#8 :: t) (e :: ps)
  | root {t : List Byte} {ps : List (List Byte)} (ht : Comps t ps) : Comps (47#8 :: t) ([47#8] :: ps)

/-- joining: a separator is put before a part unless there is one already; empty parts are dropped -/
def join : List Byte → List (List Byte) → List Byte
  | b, [] => b
  | b, [] :: ps => join b ps
  | b, (c :: p) :: ps => if b.getLast? = some 47#8 then join (b ++ c :: p) ps else join (b ++ 47#8 :: c :: p) ps

/-- the literals are what they should be -/
structure Lits (h : Heap) (lit slash : Nat) : Prop where
  empty : Text h (.str lit) []
  slash : Text h (.str slash) [47#8]

/-- no object of `h` has changed in `h'` -/
def Grows (h h' : Heap) : Prop := ∀ a < h.length, h'[a]? = h[a]?

/-! ### lemmas -/

theorem tgrows {h h' : Heap} {v : Val} {t : List Byte} (x : Text h v t) (g : Grows h h') : Text h' v t := by
  obtain ⟨a, r, rfl, e, n⟩ := x
  exact ⟨a, r, rfl, by rw [g a (List.getElem?_eq_some_iff.1 e).1, e], n⟩

theorem Grows.refl (h : Heap) : Grows h h := fun _ _ => rfl

theorem Grows.length {h h' : Heap} (g : Grows h h') : h.length ≤ h'.length := by
  by_contra hc
  have h1 := g h'.length (by omega)
  rw [List.getElem?_eq_none (Nat.le_refl _), List.getElem?_eq_getElem (by omega)] at h1
  cases h1

theorem Grows.trans {a b c : Heap} (x : Grows a b) (y : Grows b c) : Grows a c := fun i hi => (y i (Nat.lt_of_lt_of_le hi x.length)).trans (x i hi)

theorem Lits.grows {h h' : Heap} {lit slash : Nat} (x : Lits h lit slash) (g : Grows h h') : Lits h' lit slash := ⟨tgrows x.1 g, tgrows x.2 g⟩

theorem beq_char (b : Byte) : ((Val.char b == Val.char 47#8) = true) ↔ b = 47#8 := by simp

theorem scan_spec {h : Heap} {v : Val} {t : List Byte} (ht : Text h v t) (hl : t.length < 2 ^ 63) : ∀ (m i : Nat), i ≤ t.length → t.length - i < m →
    (47#8 ∉ t.drop i ∧ scan h v t.length m i = .ok none) ∨ ∃ e r, t.drop i = e ++ 47#8 :: r ∧ 47#8 ∉ e ∧ scan h v t.length m i = .ok (some (i + e.length)) := by
  intro m
  induction m with
  | zero => intro i _ h; omega
  | succ m ih =>
    intro i hi hm
    rw [scan]
    by_cases he : i = t.length
    · left
      rw [if_pos he]
      refine ⟨?_, rfl⟩
      rw [he, List.drop_length]
      simp
    · rw [if_neg he, Str.C35_ref ht hl, Str.toNat_ofNat64 (by omega)]
      have hlt : i < t.length := by omega
      rw [List.getElem?_eq_getElem hlt]
      dsimp only
      rw [Res.ok_bind]
      by_cases hc : t[i] = 47#8
      · right
        rw [if_pos ((beq_char _).2 hc)]
        refine ⟨[], t.drop (i + 1), ?_, by simp, rfl⟩
        rw [List.drop_eq_getElem_cons hlt, hc]
        rfl
      · rw [if_neg (fun x => hc ((beq_char _).1 x))]
        rw [List.drop_eq_getElem_cons hlt]
        rcases ih (i + 1) (by omega) (by omega) with ⟨h1, h2⟩ | ⟨e, r, h1, h2, h3⟩
        · left
          refine ⟨?_, h2⟩
          rw [List.mem_cons]
          rintro (h | h)
          · exact hc h.symm
          · exact h1 h
        · right
          refine ⟨t[i] :: e, r, by rw [h1]; rfl, ?_, ?_⟩
          · rw [List.mem_cons]
            rintro (h | h)
            · exact hc h.symm
            · exact h2 h
          · rw [h3, List.length_cons]
            congr 2
            omega

theorem Comps.of_nil {ps : List (List Byte)} (h : Comps [] ps) : ps = [] := by
  generalize ht : ([] : List Byte) = t at h
  cases h with
  | nil => rfl
  | last h => exact absurd ht.symm h.1
  | name h => simp at ht
  | root h => simp at ht

theorem listLoop_spec (m lit slash : Nat) : ∀ (k : Nat) (h : Heap) (v : Val) (t : List Byte) (acc : List Val) (us : List (List Byte)), Text h v t → Lits h lit slash →
    List.Forall₂ (Text h) acc us → t.length + 1 < 2 ^ 63 → t.length < m → t.length < k →
    ∃ h' vs ps, listLoop m lit slash k h v acc = .ok (h', vs) ∧ Comps t ps ∧ List.Forall₂ (Text h') vs (us.reverse ++ ps) ∧ Grows h h' := by
  intro k
  induction k with
  | zero => intro h v t acc us _ _ _ _ _ hk; omega
  | succ k ih =>
    intro h v t acc us ht hlit hacc hl hm hk
    rw [listLoop, Str.C35_length ht, Res.ok_bind]
    by_cases h0 : t.length = 0
    · rw [if_pos h0]
      obtain rfl : t = [] := List.length_eq_zero_iff.1 h0
      exact ⟨h, _, [], rfl, .nil, by simpa using List.rel_reverse hacc, Grows.refl h⟩
    · rw [if_neg h0]
      have hne : t ≠ [] := fun x => h0 (by rw [x]; rfl)
      rcases scan_spec ht (by omega) m 0 (by omega) (by omega) with ⟨h1, h2⟩ | ⟨e, r, h1, h2', h3⟩
      · rw [h2, Res.ok_bind]
        dsimp only
        rw [List.drop_zero] at h1
        obtain ⟨h', vs, ps, e1, e2, e3, e4⟩ := ih h (.str lit) [] (v :: acc) (t :: us) hlit.empty hlit (.cons ht hacc) (by simp) (by simp; omega) (by simp; omega)
        rw [Comps.of_nil e2] at e3
        exact ⟨h', vs, [t], e1, .last ⟨hne, h1⟩, by simpa using e3, e4⟩
      · rw [h3, Res.ok_bind, Nat.zero_add]
        rw [List.drop_zero] at h1
        cases e with
        | nil =>
          dsimp only [List.length_nil]
          subst h1
          have hlen : (BitVec.ofNat 64 ([] ++ 47#8 :: r).length).toNat = r.length + 1 := by
            rw [Str.toNat_ofNat64 (by omega)]; simp
          obtain ⟨h1, w, e1, e2, e3⟩ := (Str.C35_substring ht hl 1#64 (BitVec.ofNat 64 ([] ++ 47#8 :: r).length) m hm).1
            (by rw [hlen]; simp)
          rw [e1, Res.ok_bind]
          dsimp only
          rw [hlen] at e2
          have et : ((([] : List Byte) ++ 47#8 :: r).drop (1#64).toNat).take (r.length + 1 - (1#64).toNat) = r := by
            simp
          rw [et] at e2
          simp only [List.nil_append, List.length_cons] at hl hm hk
          obtain ⟨h', vs, ps, e4, e5, e6, e7⟩ := ih h1 w r (.str slash :: acc) ([47#8] :: us) e2 (hlit.grows e3) (.cons (tgrows hlit.slash e3) (hacc.imp fun _ _ x => tgrows x e3))
            (by omega) (by omega) (by omega)
          exact ⟨h', vs, [47#8] :: ps, e4, .root e5, by simpa using e6, Grows.trans e3 e7⟩
        | cons c e =>
          dsimp only [List.length_cons]
          subst h1
          have hlen : (BitVec.ofNat 64 ((c :: e) ++ 47#8 :: r).length).toNat = e.length + 2 + r.length := by
            rw [Str.toNat_ofNat64 (by omega)]; simp; try omega
          simp only [List.length_append, List.length_cons] at hl hm hk
          have hi1 : (BitVec.ofNat 64 (e.length + 1)).toNat = e.length + 1 := Str.toNat_ofNat64 (by omega)
          have hi2 : (BitVec.ofNat 64 (e.length + 2)).toNat = e.length + 2 := Str.toNat_ofNat64 (by omega)
          obtain ⟨h1, w1, a1, a2, a3⟩ := (Str.C35_substring ht (by simp; omega) 0#64 (BitVec.ofNat 64 (e.length + 1)) m (by simp; omega)).1
            (by rw [hi1]; simp)
          rw [a1, Res.ok_bind]
          dsimp only
          obtain ⟨h2, w2, b1, b2, b3⟩ := (Str.C35_substring (tgrows ht a3) (by simp; omega) (BitVec.ofNat 64 (e.length + 2)) (BitVec.ofNat 64 ((c :: e) ++ 47#8 :: r).length) m (by simp; omega)).1
            (by rw [hi2, hlen]; simp; omega)
          rw [b1, Res.ok_bind]
          dsimp only
          have ea : (((c :: e) ++ 47#8 :: r).drop (0#64).toNat).take ((BitVec.ofNat 64 (e.length + 1)).toNat - (0#64).toNat) = c :: e := by
            rw [hi1]; simp
          have eb : (((c :: e) ++ 47#8 :: r).drop (BitVec.ofNat 64 (e.length + 2)).toNat).take ((BitVec.ofNat 64 ((c :: e) ++ 47#8 :: r).length).toNat - (BitVec.ofNat 64 (e.length + 2)).toNat) = r := by
            rw [hi2, hlen]
            have : ((c :: e) ++ 47#8 :: r) = ((c :: e) ++ [47#8]) ++ r := by simp
            rw [this, List.drop_left' (by simp)]
            rw [List.take_of_length_le (by omega)]
          rw [ea] at a2
          rw [eb] at b2
          have g := Grows.trans a3 b3
          obtain ⟨h', vs, ps, e4, e5, e6, e7⟩ := ih h2 w2 r (w1 :: acc) ((c :: e) :: us) b2 (hlit.grows g) (.cons (tgrows a2 b3) (hacc.imp fun _ _ x => tgrows x g))
            (by omega) (by omega) (by omega)
          exact ⟨h', vs, (c :: e) :: ps, e4, .name ⟨by simp, h2'⟩ e5, by simpa using e6, Grows.trans g e7⟩

/-- the separator test -/
theorem slashEnd_spec {h : Heap} {v : Val} {t : List Byte} (ht : Text h v t) (hl : t.length < 2 ^ 63) :
    (t = [] → slashEnd h v = .err) ∧ (t ≠ [] → slashEnd h v = .ok (decide (t.getLast? = some 47#8))) := by
  rw [slashEnd, Str.C35_length ht, Res.ok_bind, Str.C35_ref ht hl]
  constructor
  · rintro rfl
    rfl
  · intro hne
    have hpos : 0 < t.length := List.length_pos_iff.2 hne
    have : (BitVec.ofNat 64 t.length - 1#64).toNat = t.length - 1 := by
      rw [BitVec.toNat_sub_of_le]
      · rw [Str.toNat_ofNat64 hl]; rfl
      · rw [BitVec.le_def, Str.toNat_ofNat64 hl]; simpa using Nat.succ_le_of_lt hpos
    rw [this, ← List.getLast?_eq_getElem?]
    obtain ⟨u, b, rfl⟩ := List.eq_nil_or_concat' t |>.resolve_left hne
    simp only [List.getLast?_append, List.getLast?_singleton, Option.some_or, Res.ok_bind]
    by_cases hb : b = 47#8
    · simp [hb]
    · have : (Val.char b == Val.char 47#8) = false := by
        rw [Bool.eq_false_iff]; exact fun x => hb ((beq_char b).1 x)
      simp [hb, this]

/-- the pieces that are put together -/
theorem buildLoop_spec {h : Heap} {lit slash : Nat} (hlit : Lits h lit slash) : ∀ (vs : List Val) (ts : List (List Byte)) (a : Val) (acc : List Val) (u : List Byte) (us : List (List Byte)),
    List.Forall₂ (Text h) vs ts → List.Forall₂ (Text h) (a :: acc) (u :: us) → u ≠ [] → (∀ t ∈ u :: ts, t.length < 2 ^ 63) →
    ∃ rs qs, buildLoop slash h vs (a :: acc) = .ok rs ∧ List.Forall₂ (Text h) rs qs ∧ qs.flatten = join (us.reverse.flatten ++ u) ts ∧ rs.length ≤ 2 * vs.length + acc.length + 1 := by
  intro vs
  induction vs with
  | nil =>
    intro ts a acc u us h1 h2 hu hb
    cases h1
    exact ⟨_, (u :: us).reverse, rfl, List.rel_reverse h2, by simp [join], by simp⟩
  | cons v vs ih =>
    intro ts a acc u us h1 h2 hu hb
    cases h1 with
    | @cons _ t _ ts hv hvs =>
      rw [buildLoop, Str.C35_length hv, Res.ok_bind]
      cases t with
      | nil =>
        rw [if_pos List.length_nil]
        obtain ⟨rs, qs, e1, e2, e3, e4⟩ := ih ts a acc u us hvs h2 hu (fun t ht => hb t (by simp at ht ⊢; tauto))
        exact ⟨rs, qs, e1, e2, by rw [e3]; rfl, by simp; omega⟩
      | cons c t =>
        rw [if_neg (by simp)]
        cases h2 with
        | cons ha hacc =>
          rw [(slashEnd_spec ha (hb u (by simp))).2 hu, Res.ok_bind]
          have hlast : (us.reverse.flatten ++ u).getLast? = u.getLast? := by
            obtain ⟨x, b, rfl⟩ := List.eq_nil_or_concat' u |>.resolve_left hu
            rw [← List.append_assoc]
            simp
          have hb' : ∀ x ∈ (c :: t) :: ts, x.length < 2 ^ 63 := fun x hx => hb x (List.mem_cons_of_mem _ hx)
          by_cases hs : u.getLast? = some 47#8
          · rw [if_pos (by simpa using hs)]
            obtain ⟨rs, qs, e1, e2, e3, e4⟩ := ih ts v (a :: acc) (c :: t) (u :: us) hvs (.cons hv (.cons ha hacc)) (by simp) hb'
            refine ⟨rs, qs, e1, e2, ?_, by simp at e4 ⊢; omega⟩
            rw [e3, join, if_pos (by rw [hlast]; exact hs)]
            simp
          · rw [if_neg (by simpa using hs)]
            obtain ⟨rs, qs, e1, e2, e3, e4⟩ := ih ts v (.str slash :: a :: acc) (c :: t) ([47#8] :: u :: us) hvs (.cons hv (.cons hlit.slash (.cons ha hacc))) (by simp) hb'
            refine ⟨rs, qs, e1, e2, ?_, by simp at e4 ⊢; omega⟩
            rw [e3, join, if_neg (by rw [hlast]; exact hs)]
            simp

theorem cut_unique : ∀ {e e' t t' : List Byte}, 47#8 ∉ e → 47#8 ∉ e' → e ++ 47#8 :: t = e' ++ 47#8 :: t' → e = e' ∧ t = t'
  | [], [], _, _, _, _, h => by simpa using h
  | [], c :: e', _, _, _, h', h => by simp at h h'; exact absurd h.1 h'.1
  | c :: e, [], _, _, h', _, h => by simp at h h'; exact absurd h.1.symm h'.1
  | c :: e, c' :: e', t, t', h1, h2, h => by
    simp only [List.cons_append, List.cons.injEq] at h
    obtain ⟨rfl, h⟩ := h
    obtain ⟨rfl, rfl⟩ := cut_unique (fun x => h1 (List.mem_cons_of_mem _ x)) (fun x => h2 (List.mem_cons_of_mem _ x)) h
    exact ⟨rfl, rfl⟩

/-- a text has one list of components -/
theorem Comps.unique {t : List Byte} {ps qs : List (List Byte)} (h : Comps t ps) (h' : Comps t qs) : ps = qs := by
  induction h generalizing qs with
  | nil => exact (Comps.of_nil h').symm
  | @last e hn =>
    generalize ht : e = t at h'
    cases h' with
    | nil => exact absurd ht hn.1
    | last _ => rfl
    | name => exact absurd (by rw [ht]; simp) hn.2
    | root => exact absurd (by rw [ht]; simp) hn.2
  | @name e t ps hn _ ih =>
    generalize he : e ++ 47#8 :: t = u at h'
    cases h' with
    | nil => simp at he
    | last hn' => exact absurd (by rw [← he]; simp) hn'.2
    | name hn' ht' =>
      obtain ⟨rfl, rfl⟩ := cut_unique hn.2 hn'.2 he
      rw [ih ht']
    | @root t' _ ht' =>
      obtain ⟨h1, -⟩ := cut_unique (e' := []) (t' := t') hn.2 (by simp) he
      exact absurd h1 hn.1
  | @root t ps _ ih =>
    generalize he : 47#8 :: t = u at h'
    cases h' with
    | nil => simp at he
    | last hn' => exact absurd (by rw [← he]; simp) hn'.2
    | @name e' t' _ hn' ht' =>
      obtain ⟨h1, -⟩ := cut_unique (e := []) (t := t) (by simp) hn'.2 he
      exact absurd h1.symm hn'.1
    | root ht' =>
      simp only [List.cons.injEq, true_and] at he
      subst he
      rw [ih ht']

theorem Name.last {e : List Byte} (h : Name e) : e.getLast? ≠ some 47#8 := fun x => h.2 (List.mem_of_getLast? x)

theorem join_name {e : List Byte} (he : Name e) (b : List Byte) (hb : b.getLast? ≠ some 47#8) (es : List (List Byte)) :
    join b (e :: es) = join (b ++ 47#8 :: e) es := by
  cases e with
  | nil => exact absurd rfl he.1
  | cons c e => rw [join, if_neg hb]

/-- what is before the part being joined does not matter -/
theorem join_append (a b : List Byte) (hb : b ≠ []) (ts : List (List Byte)) : join (a ++ b) ts = a ++ join b ts := by
  induction ts generalizing b with
  | nil => rfl
  | cons t ts ih =>
    have hl : (a ++ b).getLast? = b.getLast? := by
      obtain ⟨x, c, rfl⟩ := List.eq_nil_or_concat' b |>.resolve_left hb
      rw [← List.append_assoc]
      simp
    cases t with
    | nil => exact ih b hb
    | cons c t =>
      rw [join, join, hl]
      split
      · rw [List.append_assoc, ih _ (by simp)]
      · rw [List.append_assoc, ih _ (by simp)]

theorem comps_join_names : ∀ (es : List (List Byte)) (e : List Byte), Name e → (∀ x ∈ es, Name x) → Comps (join e es) (e :: es)
  | [], _, he, _ => .last he
  | x :: xs, e, he, h => by
    have hx := h x List.mem_cons_self
    rw [join_name hx e he.last, show e ++ 47#8 :: x = (e ++ [47#8]) ++ x by simp, join_append _ _ hx.1, List.append_assoc]
    exact .name he (comps_join_names xs x hx fun y hy => h y (List.mem_cons_of_mem _ hy))

theorem comps_join_root (es : List (List Byte)) (h : ∀ x ∈ es, Name x) : Comps (join [47#8] es) ([47#8] :: es) := by
  cases es with
  | nil => exact .root .nil
  | cons x xs =>
    have hx := h x List.mem_cons_self
    obtain ⟨c, x', rfl⟩ := List.exists_cons_of_ne_nil hx.1
    rw [join, if_pos (by rfl), join_append [47#8] _ (by simp)]
    exact .root (comps_join_names xs _ hx fun y hy => h y (List.mem_cons_of_mem _ hy))

/-- joining the components gives the path without a separator that ends the last name -/
theorem join_comps {t p : List Byte} {ps : List (List Byte)} (h : Comps t (p :: ps)) :
    (Comps (join p ps) (p :: ps)) ∧ p ≠ [] ∧ (join p ps = t ∨ (t = join p ps ++ [47#8] ∧ ∃ e, (p :: ps).getLast? = some e ∧ Name e)) := by
  generalize hq : p :: ps = qs at h
  induction h generalizing p ps with
  | nil => cases hq
  | last hn => cases hq; exact ⟨.last hn, hn.1, .inl rfl⟩
  | @name e t qs hn ht ih =>
    cases hq
    cases qs with
    | nil =>
      generalize hz : ([] : List (List Byte)) = z at ht
      cases ht with
      | nil => exact ⟨.last hn, hn.1, .inr ⟨rfl, _, rfl, hn⟩⟩
      | last => cases hz
      | name => cases hz
      | root => cases hz
    | cons q qs =>
      obtain ⟨h1, h2, h3⟩ := ih rfl
      obtain ⟨c, q', rfl⟩ := List.exists_cons_of_ne_nil h2
      have e1 : join e ((c :: q') :: qs) = e ++ 47#8 :: join (c :: q') qs := by
        rw [join, if_neg hn.last, show e ++ 47#8 :: c :: q' = (e ++ [47#8]) ++ (c :: q') by simp, join_append _ _ (by simp)]
        simp
      rw [e1]
      refine ⟨.name hn h1, hn.1, ?_⟩
      rcases h3 with h3 | ⟨h3, h4⟩
      · left; rw [h3]
      · right
        refine ⟨by rw [h3]; simp, ?_⟩
        rw [List.getLast?_cons_cons]
        exact h4
  | @root t qs ht ih =>
    cases hq
    cases qs with
    | nil =>
      generalize hz : ([] : List (List Byte)) = z at ht
      cases ht with
      | nil => exact ⟨.root .nil, by simp, .inl rfl⟩
      | last => cases hz
      | name => cases hz
      | root => cases hz
    | cons q qs =>
      obtain ⟨h1, h2, h3⟩ := ih rfl
      obtain ⟨c, q', rfl⟩ := List.exists_cons_of_ne_nil h2
      have e1 : join [47#8] ((c :: q') :: qs) = 47#8 :: join (c :: q') qs := by
        rw [join, if_pos (by rfl), join_append _ _ (by simp)]
        rfl
      rw [e1]
      refine ⟨.root h1, by simp, ?_⟩
      rcases h3 with h3 | ⟨h3, h4⟩
      · left; rw [h3]
      · right
        refine ⟨by rw [h3]; simp, ?_⟩
        rw [List.getLast?_cons_cons]
        exact h4

/-- a joined path ends with its last part -/
theorem join_ends : ∀ (ps : List (List Byte)) (p e : List Byte), (p :: ps).getLast? = some e → Name e → ∃ w, join p ps = w ++ e
  | [], p, e, h, _ => by cases h; exact ⟨[], rfl⟩
  | q :: qs, p, e, h, hn => by
    rw [List.getLast?_cons_cons] at h
    cases q with
    | nil =>
      cases qs with
      | nil => cases h; exact absurd rfl hn.1
      | cons r rs => exact join_ends (r :: rs) p e (by rw [List.getLast?_cons_cons] at h ⊢; exact h) hn
    | cons c q =>
      obtain ⟨w, hw⟩ := join_ends qs (c :: q) e h hn
      rw [join]
      split
      · exact ⟨p ++ w, by rw [join_append _ _ (by simp), hw]; simp⟩
      · exact ⟨p ++ 47#8 :: w, by rw [show p ++ 47#8 :: c :: q = (p ++ [47#8]) ++ (c :: q) by simp, join_append _ _ (by simp), hw]; simp⟩

/-! ### the properties -/

/-- C65, `path->list`: the components, each a string of its own text; no existing object changes. -/
theorem C65_list {h : Heap} {v : Val} {t : List Byte} {lit slash : Nat} (ht : Text h v t) (hlit : Lits h lit slash) (hl : t.length + 1 < 2 ^ 63) (m k : Nat) (hm : t.length < m)
    (hk : t.length < k) : ∃ h' vs ps, pathToList m lit slash k h v = .ok (h', vs) ∧ Comps t ps ∧ List.Forall₂ (Text h') vs ps ∧ Grows h h' := by
  obtain ⟨h', vs, ps, e1, e2, e3, e4⟩ := listLoop_spec m lit slash k h v t [] [] ht hlit .nil hl hm hk
  refine ⟨h', vs, ps, ?_, e2, by simpa using e3, e4⟩
  obtain ⟨a, r, rfl, -⟩ := ht
  exact e1

/-- C65, `build-path`: the parts joined, for a base that is not empty. -/
theorem C65_build {h : Heap} {b : Val} {vs : List Val} {u : List Byte} {ts : List (List Byte)} {lit slash : Nat} (hb : Text h b u) (hv : List.Forall₂ (Text h) vs ts) (hlit : Lits h lit slash)
    (hu : u ≠ []) (hl : (join u ts).length + 1 < 2 ^ 63) (n : Nat) (hn : (join u ts).length + 2 * vs.length + 1 < n) :
    ∃ h' r, buildPath n lit slash h b vs = .ok (h', r) ∧ Text h' r (join u ts) ∧ Grows h h' := by
  have hbound : ∀ (ts : List (List Byte)) (u : List Byte), ∀ t ∈ u :: ts, t.length ≤ (join u ts).length := by
    intro ts
    induction ts with
    | nil => intro u t ht; simp at ht; subst ht; exact Nat.le_refl _
    | cons x xs ih =>
      intro u t ht
      cases x with
      | nil =>
        have := ih u
        rw [join]
        simp only [List.mem_cons] at ht
        rcases ht with rfl | rfl | ht
        · exact this _ (by simp)
        · simp
        · exact this t (by simp [ht])
      | cons c x =>
        rw [join]
        simp only [List.mem_cons] at ht
        split
        · have := ih (u ++ c :: x)
          have h0 := this _ List.mem_cons_self
          simp only [List.length_append] at h0
          rcases ht with rfl | rfl | ht
          · omega
          · omega
          · exact this t (by simp [ht])
        · have := ih (u ++ 47#8 :: c :: x)
          have h0 := this _ List.mem_cons_self
          simp only [List.length_append, List.length_cons] at h0
          rcases ht with rfl | rfl | ht
          · omega
          · simp only [List.length_cons]; omega
          · exact this t (by simp [ht])
  obtain ⟨rs, qs, e1, e2, e3, e4⟩ := buildLoop_spec hlit vs ts b [] u [] hv (.cons hb .nil) hu (fun t ht => by have := hbound ts u t ht; omega)
  rw [buildPath, e1, Res.ok_bind]
  simp only [List.reverse_nil, List.flatten_nil, List.nil_append] at e3
  simp only [List.length_nil, Nat.add_zero] at e4
  obtain ⟨h', r, f1, f2, f3⟩ := Str.C35_append (n := n) e2 hlit.empty (by rw [e3]; exact hl) (by rw [e3]; omega)
  exact ⟨h', r, f1, by rw [← e3]; exact f2, f3⟩

/-- C65, the base may be empty only if all the other parts are. -/
theorem C65_build_empty {h : Heap} {b : Val} {vs : List Val} {ts : List (List Byte)} {lit slash : Nat} (hb : Text h b []) (hv : List.Forall₂ (Text h) vs ts) (n : Nat) :
    ((∀ t ∈ ts, t = []) → buildPath n lit slash h b vs = .ok (h, b)) ∧ ((∃ t ∈ ts, t ≠ []) → buildPath n lit slash h b vs = .err) := by
  have key : ∀ (vs : List Val) (ts : List (List Byte)), List.Forall₂ (Text h) vs ts →
      ((∀ t ∈ ts, t = []) → buildLoop slash h vs [b] = .ok [b]) ∧ ((∃ t ∈ ts, t ≠ []) → buildLoop slash h vs [b] = .err) := by
    intro vs ts hv
    induction hv with
    | nil => exact ⟨fun _ => rfl, by rintro ⟨t, ht, -⟩; cases ht⟩
    | @cons v t vs ts hx _ ih =>
      rw [buildLoop, Str.C35_length hx, Res.ok_bind]
      cases t with
      | nil =>
        rw [if_pos List.length_nil]
        exact ⟨fun h' => ih.1 fun t ht => h' t (List.mem_cons_of_mem _ ht), by
          rintro ⟨t, ht, hne⟩
          refine ih.2 ⟨t, ?_, hne⟩
          rcases List.mem_cons.1 ht with rfl | ht
          · exact absurd rfl hne
          · exact ht⟩
      | cons c t =>
        rw [if_neg (by simp)]
        refine ⟨fun h' => absurd (h' _ List.mem_cons_self) (by simp), fun _ => ?_⟩
        rw [(slashEnd_spec hb (by simp)).1 rfl]
        rfl
  refine ⟨fun h' => ?_, fun h' => ?_⟩
  · rw [buildPath, (key vs ts hv).1 h', Res.ok_bind]
    obtain ⟨a, r, rfl, -⟩ := hb
    rfl
  · rw [buildPath, (key vs ts hv).2 h']
    rfl

/-- C65, splitting a built path: a path built from names, relative or absolute, has these components again. -/
theorem C65_partial {h : Heap} {b : Val} {vs : List Val} {u : List Byte} {ts : List (List Byte)} {lit slash lit' slash' : Nat} (hb : Text h b u) (hv : List.Forall₂ (Text h) vs ts) (hlit : Lits h lit slash) (hlit' : Lits h lit' slash')
    (hu : Name u ∨ u = [47#8]) (ht : ∀ t ∈ ts, Name t) (hl : (join u ts).length + 1 < 2 ^ 63) (n : Nat) (hn : (join u ts).length + 2 * vs.length + 1 < n) :
    ∃ h1 r h2 ws, buildPath n lit slash h b vs = .ok (h1, r) ∧ pathToList n lit' slash' n h1 r = .ok (h2, ws) ∧ List.Forall₂ (Text h2) ws (u :: ts) ∧ Grows h h2 := by
  have hne : u ≠ [] := by
    rcases hu with h | rfl
    · exact h.1
    · simp
  obtain ⟨h1, r, e1, e2, e3⟩ := C65_build hb hv hlit hne hl n hn
  obtain ⟨h2, ws, ps, f1, f2, f3, f4⟩ := C65_list e2 (hlit'.grows e3) hl n n (by omega) (by omega)
  have hc : Comps (join u ts) (u :: ts) := by
    rcases hu with h | rfl
    · exact comps_join_names ts u h ht
    · exact comps_join_root ts ht
  rw [f2.unique hc] at f3
  exact ⟨h1, r, h2, ws, e1, f1, f3, Grows.trans e3 f4⟩

/-- C65, building a split path: the components joined give the path again, without a separator that ends the last name. -/
theorem C65_rebuild {h : Heap} {v : Val} {t : List Byte} {lit slash lit' slash' : Nat} (ht : Text h v t) (hlit : Lits h lit slash) (hlit' : Lits h lit' slash') (hne : t ≠ []) (hl : t.length + 1 < 2 ^ 63) (n : Nat)
    (hn : 3 * t.length + 3 < n) :
    ∃ h1 b bs h2 r u, pathToList n lit slash n h v = .ok (h1, b :: bs) ∧ buildPath n lit' slash' h1 b bs = .ok (h2, r) ∧ Text h2 r u ∧
      (u = t ∨ (t = u ++ [47#8] ∧ u ≠ [] ∧ u.getLast? ≠ some 47#8)) := by
  obtain ⟨h1, vs, ps, e1, e2, e3, e4⟩ := C65_list ht hlit hl n n (by omega) (by omega)
  cases e3 with
  | nil =>
    generalize hz : ([] : List (List Byte)) = z at e2
    cases e2 with
    | nil => exact absurd rfl hne
    | last => cases hz
    | name => cases hz
    | root => cases hz
  | @cons b p bs ps hb hbs =>
    obtain ⟨j1, j2, j3⟩ := join_comps e2
    have hlen : (join p ps).length ≤ t.length := by
      rcases j3 with j3 | ⟨j3, -⟩
      · rw [j3]
      · rw [j3]; simp
    have hcount : ∀ {t : List Byte} {ps : List (List Byte)}, Comps t ps → ps.length ≤ t.length := by
      intro t ps h
      induction h with
      | nil => exact Nat.le_refl _
      | last h => simpa using Nat.succ_le_of_lt (List.length_pos_iff.2 h.1)
      | name h _ ih => simp; omega
      | root _ ih => simpa using ih
    have hc := hcount e2
    have hbl := hbs.length_eq
    simp only [List.length_cons] at hc
    obtain ⟨h2, r, f1, f2, f3⟩ := C65_build hb hbs (hlit'.grows e4) j2 (by omega) n (by omega)
    refine ⟨h1, b, bs, h2, r, join p ps, e1, f1, f2, ?_⟩
    rcases j3 with j3 | ⟨j3, e, j4, j5⟩
    · exact .inl j3
    · refine .inr ⟨j3, ?_, ?_⟩
      · intro hz
        rw [hz] at j1
        cases Comps.of_nil j1
      · obtain ⟨w, hw⟩ := join_ends ps p e j4 j5
        rw [hw]
        obtain ⟨x, c, rfl⟩ := List.eq_nil_or_concat' e |>.resolve_left j5.1
        have := j5.last
        rw [← List.append_assoc]
        simpa using this

/-- C65, `split-path`: the last component and, if there are more, the others joined; the empty path is refused. -/
theorem C65_split {h : Heap} {v : Val} {t : List Byte} {lit slash lit' slash' : Nat} (ht : Text h v t) (hlit : Lits h lit slash) (hlit' : Lits h lit' slash') (hl : t.length + 1 < 2 ^ 63) (n : Nat) (hn : 3 * t.length + 3 < n) :
    (t = [] ∧ splitPath n n lit slash lit' slash' n h v = .err) ∨
    (∃ h' e x, Comps t [x] ∧ splitPath n n lit slash lit' slash' n h v = .ok (h', none, e) ∧ Text h' e x ∧ Grows h h') ∨
    (∃ h' d e u p ps x, Comps t (p :: (ps ++ [x])) ∧ splitPath n n lit slash lit' slash' n h v = .ok (h', some d, e) ∧ Text h' e x ∧ Text h' d u ∧ u = join p ps ∧
      (join u [x] = t ∨ (t = join u [x] ++ [47#8] ∧ Name x)) ∧ Grows h h') := by
  obtain ⟨h1, vs, ps, e1, e2, e3, e4⟩ := C65_list ht hlit hl n n (by omega) (by omega)
  have hstr : v.isStr = true := by
    obtain ⟨a, r, rfl, -⟩ := ht
    rfl
  rw [splitPath, if_pos hstr, e1, Res.ok_bind]
  dsimp only
  have hcount : ∀ {t : List Byte} {ps : List (List Byte)}, Comps t ps → ps.length ≤ t.length := by
    intro t ps h
    induction h with
    | nil => exact Nat.le_refl _
    | last h => simpa using Nat.succ_le_of_lt (List.length_pos_iff.2 h.1)
    | name h _ ih => simp; omega
    | root _ ih => simpa using ih
  have hc := hcount e2
  rcases List.eq_nil_or_concat' ps with rfl | ⟨qs, x, rfl⟩
  · left
    cases e3
    refine ⟨?_, rfl⟩
    generalize hz : ([] : List (List Byte)) = z at e2
    cases e2 with
    | nil => rfl
    | last => cases hz
    | name => cases hz
    | root => cases hz
  · right
    rcases List.eq_nil_or_concat' vs with rfl | ⟨ws, e, rfl⟩
    · have := e3.length_eq
      simp at this
    have hr := List.rel_reverse e3
    simp only [List.reverse_append, List.reverse_cons, List.reverse_nil, List.nil_append, List.cons_append] at hr ⊢
    cases hr with
    | cons hx hr =>
      have hq := List.rel_reverse hr
      rw [List.reverse_reverse, List.reverse_reverse] at hq
      cases hq with
      | nil => exact .inl ⟨h1, e, x, e2, rfl, hx, e4⟩
      | @cons b p bs ps hb hbs =>
        right
        have hrev : ∃ y ys, (b :: bs).reverse = y :: ys := List.exists_cons_of_ne_nil (by simp)
        obtain ⟨y, ys, hy⟩ := hrev
        rw [hy]
        dsimp only
        rw [← hy, List.reverse_reverse]
        dsimp only
        rw [List.cons_append] at e2
        obtain ⟨j1, j2, j3⟩ := join_comps e2
        have hsnoc : ∀ (ps : List (List Byte)) (p : List Byte), join p (ps ++ [x]) = join (join p ps) [x] := by
          intro ps
          induction ps with
          | nil => intro p; rfl
          | cons q qs ih =>
            intro p
            cases q with
            | nil => exact ih p
            | cons c q =>
              rw [List.cons_append, join, join]
              split
              · exact ih _
              · exact ih _
        rw [hsnoc] at j3
        have hxl : (join p ps).length ≤ (join (join p ps) [x]).length := by
          cases x with
          | nil => exact Nat.le_refl _
          | cons c x =>
            rw [join]
            split
            · simp [join]
            · simp [join]
        have hlen : (join (join p ps) [x]).length ≤ t.length := by
          rcases j3 with j3 | ⟨j3, -⟩
          · rw [j3]
          · rw [j3]; simp
        have hbl := hbs.length_eq
        simp only [List.cons_append, List.length_cons, List.length_append, List.length_nil] at hc
        obtain ⟨h2, r, f1, f2, f3⟩ := C65_build hb hbs (hlit'.grows e4) j2 (by omega) n (by omega)
        rw [f1, Res.ok_bind]
        refine ⟨h2, r, e, _, p, ps, x, e2, rfl, tgrows hx f3, f2, rfl, ?_, Grows.trans e4 f3⟩
        rcases j3 with j3 | ⟨j3, e', j4, j5⟩
        · exact .inl j3
        · refine .inr ⟨j3, ?_⟩
          rw [← List.cons_append, List.getLast?_append] at j4
          simp at j4
          rw [j4]
          exact j5

/-- C65, `is-absolute-path?` -/
theorem C65_absolute {h : Heap} {v : Val} {t : List Byte} (ht : Text h v t) (hl : t.length < 2 ^ 63) : isAbsolute h v = .ok (decide (t.head? = some 47#8)) := by
  rw [isAbsolute, Str.C35_length ht, Res.ok_bind]
  cases t with
  | nil => rfl
  | cons c t =>
    rw [if_neg (by simp), Str.C35_ref ht hl]
    simp only [BitVec.toNat_ofNat, Nat.zero_mod, List.getElem?_cons_zero, Res.ok_bind, List.head?_cons]
    by_cases hb : c = 47#8
    · simp [hb]
    · have : (Val.char c == Val.char 47#8) = false := by
        rw [Bool.eq_false_iff]; exact fun x => hb ((beq_char c).1 x)
      simp [hb, this]

/-! ### the hypotheses are met; the violations -/

/-- the literals, then "usr", "lib", "" and "a/b//c/" -/
def demo : Heap := [.buf [0#8], .buf [47#8, 0#8], .buf [117#8, 115#8, 114#8, 0#8], .buf [108#8, 105#8, 98#8, 0#8], .buf [0#8], .buf [97#8, 47#8, 98#8, 47#8, 47#8, 99#8, 47#8, 0#8]]

example : Lits demo 0 1 := ⟨⟨0, [], rfl, rfl, by decide⟩, ⟨1, [], rfl, rfl, by decide⟩⟩

theorem demo_usr : Text demo (.str 2) [117#8, 115#8, 114#8] := ⟨2, [], rfl, rfl, by decide⟩
theorem demo_lib : Text demo (.str 3) [108#8, 105#8, 98#8] := ⟨3, [], rfl, rfl, by decide⟩

example : Name [117#8, 115#8, 114#8] := ⟨by decide, by decide⟩

example : ∃ h1 r h2 ws, buildPath 30 0 1 demo (.str 2) [.str 3] = .ok (h1, r) ∧ pathToList 30 0 1 30 h1 r = .ok (h2, ws) ∧
    List.Forall₂ (Text h2) ws [[117#8, 115#8, 114#8], [108#8, 105#8, 98#8]] ∧ Grows demo h2 :=
  C65_partial (lit := 0) (slash := 1) (lit' := 0) (slash' := 1) demo_usr (.cons demo_lib .nil) ⟨⟨0, [], rfl, rfl, by decide⟩, ⟨1, [], rfl, rfl, by decide⟩⟩ ⟨⟨0, [], rfl, rfl, by decide⟩, ⟨1, [], rfl, rfl, by decide⟩⟩ (.inl ⟨by decide, by decide⟩)
    (by intro t ht; simp at ht; subst ht; exact ⟨by decide, by decide⟩) (by decide) 30 (by decide)

/-- "a/b//c/" -/
example : Comps [97#8, 47#8, 98#8, 47#8, 47#8, 99#8, 47#8] [[97#8], [98#8], [47#8], [99#8]] :=
  .name (e := [97#8]) ⟨by decide, by decide⟩ (.name (e := [98#8]) ⟨by decide, by decide⟩ (.root (.name (e := [99#8]) ⟨by decide, by decide⟩ .nil)))

/-- C65 fails for an empty first part: `(build-path "" "usr")` is refused, although empty parts are dropped elsewhere. -/
theorem C65_negated : Text demo (.str 4) [] ∧ Text demo (.str 2) [117#8, 115#8, 114#8] ∧ buildPath 30 0 1 demo (.str 4) [.str 2] = .err ∧
    ∃ h', buildPath 30 0 1 demo (.str 2) [.str 4, .str 3] = .ok (h', .str 6) :=
  ⟨⟨4, [], rfl, rfl, by decide⟩, demo_usr, rfl, _, rfl⟩

/-- C65 fails after a string that `path->list` returned is changed: the components `"/"` are one literal, so after `(string-set! (car (path->list "/u")) 0 #\x)`, `(path->list "/u")` is
`("x" "u")`. -/
theorem C65_negated_literal : ∃ h1 h2 h3 ps p, pathToList 30 0 1 30 (demo ++ [.buf [47#8, 117#8, 0#8]]) (.str 6) = .ok (h1, .str 1 :: ps) ∧
    Str.pStringSet h1 (.str 1) (.num 0#64) (.char 120#8) = .ok h2 ∧ Text h2 (.str 6) [47#8, 117#8] ∧ pathToList 30 0 1 30 h2 (.str 6) = .ok (h3, [.str 1, p]) ∧
    Text h3 (.str 1) [120#8] ∧ Text h3 p [117#8] :=
  ⟨_, _, _, _, _, rfl, rfl, ⟨_, _, rfl, rfl, by decide⟩, rfl, ⟨_, _, rfl, rfl, by decide⟩, ⟨_, _, rfl, rfl, by decide⟩⟩

end Minim.Path

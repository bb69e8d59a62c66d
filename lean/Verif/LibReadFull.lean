import Verif.LibReadDen

set_option autoImplicit false

/-! # What the library reader returns is syntax in every part (specification and lemmas) -/

namespace Minim.LRd

mutual
/-- a syntax object whose parts are syntax objects, in the form the expander takes apart (specification) -/
def Full : W → Prop
  | .stx e => Inner e
  | _ => False

/-- the contents of such a syntax object (specification) -/
def Inner : W → Prop
  | .cons a d => Full a ∧ Tail d
  | .vec l => Elems l
  | .box d => Full d
  | .stx _ => False
  | _ => True

/-- the rest of a list: pairs with syntax objects as their cars; behind the last pair null or, for a dotted list, a syntax object
(specification) -/
def Tail : W → Prop
  | .cons a d => Full a ∧ Tail d
  | .null => True
  | .stx e => Inner e
  | _ => False

/-- the elements of a vector (specification) -/
def Elems : W → Prop
  | .cons a d => Full a ∧ Elems d
  | .null => True
  | _ => False
end

/-- converted to syntax, the object is syntax in every part -/
def Good (w : W) : Prop := Full (toStx w) ∧ Tail (tailStx w)

theorem full_stx {w : W} (h : Full w) : ∃ e, w = .stx e ∧ Inner e := by
  cases w <;> simp_all [Full]

theorem Full.good {w : W} (h : Full w) : Good w := by
  obtain ⟨e, rfl, he⟩ := full_stx h
  exact ⟨by simpa [toStx, Full] using he, by simpa [tailStx, Tail] using he⟩

theorem Good.cons {a d : W} (ha : Good a) (hd : Good d) : Good (.cons a d) := by
  simp only [Good, toStx, tailStx, Full, Inner, Tail]
  exact ⟨⟨ha.1, hd.2⟩, ha.1, hd.2⟩

theorem good_null : Good .null := by simp [Good, toStx, tailStx, Full, Inner, Tail]
theorem good_sym (s : List Byte) : Good (.sym s) := by simp [Good, toStx, tailStx, Full, Inner, Tail]
theorem good_fix (z : Int) : Good (.fix z) := by simp [Good, toStx, tailStx, Full, Inner, Tail]
theorem good_bool (b : Bool) : Good (.bool b) := by simp [Good, toStx, tailStx, Full, Inner, Tail]
theorem good_char (b : Byte) : Good (.char b) := by simp [Good, toStx, tailStx, Full, Inner, Tail]
theorem good_str (s : List Byte) : Good (.str s) := by simp [Good, toStx, tailStx, Full, Inner, Tail]
theorem good_eof : Good .eof := by simp [Good, toStx, tailStx, Full, Inner, Tail]
theorem good_box {w : W} (h : Good w) : Good (.box w) := by simp [Good, toStx, tailStx, Full, Inner, Tail, h.1]

theorem elems_listW : ∀ l : List W, (∀ w ∈ l, Good w) → Elems (elemsStx (listW l))
  | [], _ => by simp [listW, elemsStx, Elems]
  | w :: l, h => by
    simp only [listW, elemsStx, Elems]
    exact ⟨(h w (by simp)).1, elems_listW l (fun x hx => h x (by simp [hx]))⟩

theorem good_vec {l : List W} (h : ∀ w ∈ l, Good w) : Good (.vec (listW l)) := by
  simp only [Good, toStx, tailStx, Full, Inner, Tail]
  exact ⟨elems_listW l h, elems_listW l h⟩

theorem good_symL : ∀ (inp acc : List Byte), Good (symL acc inp).1
  | [], acc => good_sym _
  | b :: r, acc => by
    rw [symL]
    split
    · exact good_sym _
    · exact good_symL r _

theorem good_numL : ∀ (inp acc : List Byte) (num : Nat) (q : W × List Byte), numL acc num inp = .ok q → Good q.1
  | [], _, _, q, h => by simp [numL] at h
  | b :: r, acc, num, q, h => by
    rw [numL] at h
    split at h
    · split at h
      · cases h
      · exact good_numL r _ _ q h
    · split at h
      · cases h; exact good_symL _ _
      · cases h; exact good_fix _

theorem good_hexLoop (s : Int) : ∀ (inp acc : List Byte) (num : Nat) (q : W × List Byte), hexLoop s acc num inp = .ok q → Good q.1
  | [], _, _, q, h => by simp [hexLoop] at h
  | b :: r, acc, num, q, h => by
    rw [hexLoop] at h
    split at h
    · split at h
      · cases h
      · exact good_hexLoop s r _ _ q h
    · split at h
      · cases h; exact good_symL _ _
      · cases h; exact good_fix _

theorem good_hexNum {inp : List Byte} {q : W × List Byte} (h : hexNum inp = .ok q) : Good q.1 := by
  cases inp with
  | nil => exact good_hexLoop _ _ _ _ _ h
  | cons b r =>
    rw [hexNum] at h
    split at h
    · exact good_hexLoop _ _ _ _ _ h
    · split at h <;> exact good_hexLoop _ _ _ _ _ h

/-- the eof object, or syntax in every part -/
def Out (w : W) : Prop := w = .eof ∨ Full w

theorem Out.good {w : W} (h : Out w) : Good w := by
  rcases h with rfl | h
  · exact good_eof
  · exact h.good

theorem out_toStx {w : W} (h : Good w) : Out (toStx w) := Or.inr h.1

theorem out_signL {s : Byte} {r : List Byte} {q : W × List Byte} (h : signL s r = .ok q) : Out q.1 := by
  rw [signL] at h
  obtain ⟨d, _, h⟩ := Res.bind_eq_ok.1 h
  split at h
  · obtain ⟨p, hp, h⟩ := Res.bind_eq_ok.1 h
    have := good_numL _ _ _ _ hp
    split at h
    · split at h
      · cases h; exact out_toStx (good_fix _)
      · cases h
    · cases h; exact out_toStx this
  · cases h; exact out_toStx (good_symL _ _)

theorem out_stringL {r : List Byte} {q : W × List Byte} (h : stringL r = .ok q) : Out q.1 := by
  rw [stringL] at h
  obtain ⟨p, hp, h⟩ := Res.bind_eq_ok.1 h
  split at h
  · cases h; exact out_toStx (good_str _)
  · cases h

theorem good_closeL {o : Byte} {w : W} {inp : List Byte} {q : W × List Byte} (h : closeL o w inp = .ok q) : q.1 = w := by
  cases inp with
  | nil => cases h
  | cons x r =>
    rw [closeL] at h
    split at h
    · split at h
      · cases h; rfl
      · cases h
    · cases h

theorem full_all (n : Nat) :
    (∀ inp q, rd n inp = .ok q → Out q.1) ∧ (∀ inp q, rdHash n inp = .ok q → Out q.1) ∧ (∀ o inp q, rdPair n o inp = .ok q → Good q.1) ∧
    (∀ o car inp q, Good car → rdRest n o car inp = .ok q → Good q.1) ∧
    (∀ inp acc q, (∀ w ∈ acc, Good w) → rdVec n inp acc = .ok q → Good q.1) := by
  induction n with
  | zero => refine ⟨?_, ?_, ?_, ?_, ?_⟩ <;> intros <;> simp_all [rd, rdHash, rdPair, rdRest, rdVec]
  | succ n ih =>
    obtain ⟨ih1, ih2, ih3, ih4, ih5⟩ := ih
    refine ⟨?_, ?_, ?_, ?_, ?_⟩
    · intro inp q h
      rw [rd] at h
      split at h
      · cases h; exact Or.inl rfl
      · split at h
        · exact ih2 _ _ h
        split at h
        · exact out_signL h
        split at h
        · obtain ⟨p, hp, h⟩ := Res.bind_eq_ok.1 h
          cases h; exact out_toStx (good_numL _ _ _ _ hp)
        split at h
        · exact out_stringL h
        split at h
        · obtain ⟨p, hp, h⟩ := Res.bind_eq_ok.1 h
          cases h; exact out_toStx (ih3 _ _ _ hp)
        split at h
        · obtain ⟨p, hp, h⟩ := Res.bind_eq_ok.1 h
          cases h; exact out_toStx ((good_sym _).cons ((ih1 _ _ hp).good.cons good_null))
        split at h
        · cases h; exact out_toStx (good_symL _ _)
        · cases h
    · intro inp q h
      cases inp with
      | nil => cases h
      | cons x r =>
        rw [rdHash.eq_def] at h
        simp only at h
        split at h
        · cases h; exact out_toStx (good_bool _)
        split at h
        · cases h; exact out_toStx (good_bool _)
        split at h
        · obtain ⟨p, hp, h⟩ := Res.bind_eq_ok.1 h
          cases h; exact out_toStx (good_char _)
        split at h
        · obtain ⟨p, hp, h⟩ := Res.bind_eq_ok.1 h
          cases h; exact out_toStx ((good_sym _).cons ((ih1 _ _ hp).good.cons good_null))
        split at h
        · obtain ⟨p, hp, h⟩ := Res.bind_eq_ok.1 h
          cases h; exact out_toStx (ih5 _ _ _ (by simp) hp)
        split at h
        · obtain ⟨p, hp, h⟩ := Res.bind_eq_ok.1 h
          cases h; exact out_toStx (good_box (ih1 _ _ hp).good)
        split at h
        · obtain ⟨p, hp, h⟩ := Res.bind_eq_ok.1 h
          cases h; exact out_toStx (good_hexNum hp)
        split at h
        · split at h
          · cases h
          · obtain ⟨p, hp, h⟩ := Res.bind_eq_ok.1 h
            exact ih1 _ _ h
        split at h
        · obtain ⟨r', _, h⟩ := Res.bind_eq_ok.1 h
          obtain ⟨p, hp, h⟩ := Res.bind_eq_ok.1 h
          cases h; exact out_toStx (ih1 _ _ hp).good
        · cases h
    · intro o inp q h
      rw [rdPair] at h
      split at h
      · cases h
      · split at h
        · split at h
          · cases h; exact good_null
          · cases h
        · obtain ⟨p, hp, h⟩ := Res.bind_eq_ok.1 h
          exact ih4 _ _ _ _ (ih1 _ _ hp).good h
    · intro o car inp q hc h
      rw [rdRest] at h
      split at h
      · cases h
      · split at h
        · obtain ⟨p, hp, h⟩ := Res.bind_eq_ok.1 h
          have hg := (ih1 _ _ hp).good
          split at h
          · split at h
            · obtain ⟨c, hcd, h⟩ := Res.bind_eq_ok.1 h
              rw [good_closeL h]
              exact hc.cons (ih1 _ _ hcd).good
            · obtain ⟨t, ht, h⟩ := Res.bind_eq_ok.1 h
              cases h
              exact hc.cons (ih4 _ _ _ _ hg ht)
          · cases h
        · obtain ⟨t, ht, h⟩ := Res.bind_eq_ok.1 h
          cases h
          exact hc.cons (ih3 _ _ _ ht)
    · intro inp acc q ha h
      rw [rdVec] at h
      split at h
      · cases h; exact good_vec (by simpa using ha)
      · obtain ⟨p, hp, h⟩ := Res.bind_eq_ok.1 h
        refine ih5 _ _ _ ?_ h
        intro w hw
        rcases List.mem_cons.1 hw with rfl | hw
        · exact (ih1 _ _ hp).good
        · exact ha w hw

end Minim.LRd

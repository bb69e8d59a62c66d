import Verif.LibReadFull

set_option autoImplicit false

/-! # The library reader: fuel, consumption of the input, termination (lemmas) -/

namespace Minim.LRd

open Minim.Rd (digitB isClose isOpen matching)

/-! ### fuel -/

theorem block_le : ∀ (n l : Nat) (inp : List Byte), Res.Le (blockL n l inp) (blockL (n + 1) l inp) := by
  intro n
  induction n with
  | zero => intro l inp; exact Or.inl rfl
  | succ n ih =>
    intro l inp
    cases l with
    | zero => exact .refl _
    | succ l =>
      cases inp with
      | nil => exact ih (l + 1) []
      | cons x r =>
        rw [blockL.eq_def, blockL.eq_def (n + 1 + 1)]
        simp only
        refine .ite ?_ (.ite ?_ (ih _ _))
        · cases r with
          | nil => exact .refl _
          | cons y r => exact .ite (ih _ _) (ih _ _)
        · cases r with
          | nil => exact .refl _
          | cons y r => exact .ite (ih _ _) (ih _ _)

theorem rd_le (n : Nat) :
    (∀ inp, Res.Le (rd n inp) (rd (n + 1) inp)) ∧ (∀ inp, Res.Le (rdHash n inp) (rdHash (n + 1) inp)) ∧
    (∀ o inp, Res.Le (rdPair n o inp) (rdPair (n + 1) o inp)) ∧ (∀ o car inp, Res.Le (rdRest n o car inp) (rdRest (n + 1) o car inp)) ∧
    (∀ inp acc, Res.Le (rdVec n inp acc) (rdVec (n + 1) inp acc)) := by
  induction n with
  | zero => refine ⟨?_, ?_, ?_, ?_, ?_⟩ <;> intros <;> left <;> simp [rd, rdHash, rdPair, rdRest, rdVec]
  | succ n ih =>
    obtain ⟨ih1, ih2, ih3, ih4, ih5⟩ := ih
    refine ⟨?_, ?_, ?_, ?_, ?_⟩
    · intro inp
      rw [rd, rd]
      cases skipL false inp with
      | nil => exact .refl _
      | cons x r =>
        exact .ite (ih2 _) (.ite (.refl _) (.ite (.refl _) (.ite (.refl _) (.ite ((ih3 _ _).bind fun _ => .refl _)
          (.ite ((ih1 _).bind fun _ => .refl _) (.refl _))))))
    · intro inp
      cases inp with
      | nil => exact .refl _
      | cons x r =>
        rw [rdHash.eq_def, rdHash.eq_def (n + 1 + 1)]
        simp only
        refine .ite (.refl _) (.ite (.refl _) (.ite (.refl _) (.ite ((ih1 _).bind fun _ => .refl _) (.ite ((ih5 _ _).bind fun _ => .refl _)
          (.ite ((ih1 _).bind fun _ => .refl _) (.ite (.refl _) (.ite ?_ (.ite ((block_le _ _ _).bind fun _ => (ih1 _).bind fun _ => .refl _)
            (.refl _)))))))))
        cases skipL false r with
        | nil => exact .refl _
        | cons y r' => exact (ih1 _).bind fun _ => ih1 _
    · intro o inp
      rw [rdPair, rdPair]
      cases skipL false inp with
      | nil => exact .refl _
      | cons x r => exact .ite (.refl _) ((ih1 _).bind fun _ => ih4 _ _ _)
    · intro o car inp
      rw [rdRest, rdRest]
      cases skipL false inp with
      | nil => exact .refl _
      | cons x r =>
        refine .ite ((ih1 _).bind fun q => ?_) ((ih3 _ _).bind fun _ => .refl _)
        obtain ⟨w, r'⟩ := q
        cases w <;> try exact .refl _
        exact .ite ((ih1 _).bind fun _ => .refl _) ((ih4 _ _ _).bind fun _ => .refl _)
    · intro inp acc
      rw [rdVec, rdVec]
      exact .ite (.refl _) ((ih1 _).bind fun _ => ih5 _ _)

theorem rd_mono {n m : Nat} (h : n ≤ m) (inp : List Byte) : Res.Le (rd n inp) (rd m inp) := by
  induction h with
  | refl => exact .refl _
  | step _ ih => exact ih.trans ((rd_le _).1 inp)

/-! ### what is left of the input -/

theorem skip_suffix : ∀ (f : Bool) (inp : List Byte), skipL f inp <:+ inp
  | _, [] => by cases ‹Bool› <;> exact List.suffix_refl _
  | false, b :: r => by
    rw [skipL]
    split
    · exact (skip_suffix false r).trans (List.suffix_cons _ _)
    · split
      · exact (skip_suffix true r).trans (List.suffix_cons _ _)
      · exact List.suffix_refl _
  | true, b :: r => by
    rw [skipL]
    split
    · exact (skip_suffix false r).trans (List.suffix_cons _ _)
    · exact (skip_suffix true r).trans (List.suffix_cons _ _)

theorem block_suffix : ∀ (n l : Nat) (inp r : List Byte), blockL n l inp = .ok r → r <:+ inp := by
  intro n
  induction n with
  | zero => intro l inp r h; cases h
  | succ n ih =>
    intro l inp r h
    cases l with
    | zero => cases h; exact List.suffix_refl _
    | succ l =>
      cases inp with
      | nil => exact ih _ _ _ h
      | cons x s =>
        rw [blockL.eq_def] at h
        simp only at h
        split at h
        · split at h
          · cases h
          · split at h
            · exact ((ih _ _ _ h).trans (List.suffix_cons _ _)).trans (List.suffix_cons _ _)
            · exact (ih _ _ _ h).trans (List.suffix_cons _ _)
        · split at h
          · split at h
            · cases h
            · split at h
              · exact ((ih _ _ _ h).trans (List.suffix_cons _ _)).trans (List.suffix_cons _ _)
              · exact (ih _ _ _ h).trans (List.suffix_cons _ _)
          · exact (ih _ _ _ h).trans (List.suffix_cons _ _)

theorem expect_suffix : ∀ (s inp r : List Byte), expectL s inp = .ok r → r <:+ inp
  | [], inp, r, h => by cases h; exact List.suffix_refl _
  | _ :: _, [], r, h => by cases h
  | s :: ss, b :: t, r, h => by
    rw [expectL] at h
    split at h
    · exact (expect_suffix ss t r h).trans (List.suffix_cons _ _)
    · cases h

theorem plain_suffix {b : Byte} {r : List Byte} {q : Byte × List Byte} (h : plainChar b r = .ok q) : q.2 = r := by
  rw [plainChar] at h
  split at h
  · cases h; rfl
  · cases h

theorem char_suffix {inp : List Byte} {q : Byte × List Byte} (h : charL inp = .ok q) : q.2 <:+ inp := by
  cases inp with
  | nil => cases h
  | cons b r =>
    rw [charL] at h
    have hp : ∀ {q}, plainChar b r = .ok q → q.2 <:+ b :: r := fun h => by rw [plain_suffix h]; exact List.suffix_cons _ _
    split at h
    · split at h
      · obtain ⟨r', hr, h⟩ := Res.bind_eq_ok.1 h
        cases h
        exact (expect_suffix _ _ _ hr).trans (List.suffix_cons _ _)
      · exact hp h
    · split at h
      · split at h
        · obtain ⟨r', hr, h⟩ := Res.bind_eq_ok.1 h
          cases h
          exact (expect_suffix _ _ _ hr).trans (List.suffix_cons _ _)
        · exact hp h
      · exact hp h

theorem sym_suffix : ∀ (inp acc : List Byte), (symL acc inp).2 <:+ inp
  | [], _ => List.suffix_refl _
  | b :: r, acc => by
    rw [symL]
    split
    · exact List.suffix_refl _
    · exact (sym_suffix r _).trans (List.suffix_cons _ _)

theorem num_suffix : ∀ (inp acc : List Byte) (num : Nat) (q : W × List Byte), numL acc num inp = .ok q → q.2 <:+ inp
  | [], _, _, q, h => by simp [numL] at h
  | b :: r, acc, num, q, h => by
    rw [numL] at h
    split at h
    · split at h
      · cases h
      · exact (num_suffix r _ _ q h).trans (List.suffix_cons _ _)
    · split at h
      · cases h; exact (sym_suffix r _).trans (List.suffix_cons _ _)
      · cases h; exact List.suffix_refl _

theorem hex_suffix (s : Int) : ∀ (inp acc : List Byte) (num : Nat) (q : W × List Byte), hexLoop s acc num inp = .ok q → q.2 <:+ inp
  | [], _, _, q, h => by simp [hexLoop] at h
  | b :: r, acc, num, q, h => by
    rw [hexLoop] at h
    split at h
    · split at h
      · cases h
      · exact (hex_suffix s r _ _ q h).trans (List.suffix_cons _ _)
    · split at h
      · cases h; exact (sym_suffix r _).trans (List.suffix_cons _ _)
      · cases h; exact List.suffix_refl _

theorem hexNum_suffix {inp : List Byte} {q : W × List Byte} (h : hexNum inp = .ok q) : q.2 <:+ inp := by
  cases inp with
  | nil => exact hex_suffix 1 [] [] 0 _ h
  | cons b r =>
    rw [hexNum] at h
    split at h
    · exact (hex_suffix _ _ _ _ _ h).trans (List.suffix_cons _ _)
    · split at h
      · exact (hex_suffix _ _ _ _ _ h).trans (List.suffix_cons _ _)
      · exact hex_suffix _ _ _ _ _ h

theorem str_suffix : ∀ (m : Nat) (inp acc : List Byte), inp.length ≤ m → ∀ q, strL acc inp = .ok q → q.2 <:+ inp := by
  intro m
  induction m with
  | zero =>
    intro inp acc hm q h
    have : inp = [] := List.length_eq_zero_iff.1 (by omega)
    subst this
    rw [strL.eq_def] at h; cases h
  | succ m ih =>
    intro inp acc hm q h
    cases inp with
    | nil => rw [strL.eq_def] at h; cases h
    | cons b r =>
      simp only [List.length_cons] at hm
      rw [strL.eq_def] at h
      simp only at h
      split at h
      · cases r with
        | nil => cases h
        | cons c r =>
          simp only [List.length_cons] at hm
          simp only at h
          have hs : ∀ acc, strL acc r = .ok q → q.2 <:+ b :: c :: r := fun acc h =>
            ((ih _ _ (by omega) _ h).trans (List.suffix_cons _ _)).trans (List.suffix_cons _ _)
          split at h
          · exact hs _ h
          · split at h
            · exact hs _ h
            · split at h
              · exact hs _ h
              · cases h
      · split at h
        · cases h; exact List.suffix_cons _ _
        · exact (ih _ _ (by omega) _ h).trans (List.suffix_cons _ _)

theorem sign_suffix {s : Byte} {r : List Byte} {q : W × List Byte} (h : signL s r = .ok q) : q.2 <:+ r := by
  rw [signL] at h
  obtain ⟨d, _, h⟩ := Res.bind_eq_ok.1 h
  split at h
  · obtain ⟨p, hp, h⟩ := Res.bind_eq_ok.1 h
    have := num_suffix _ _ _ _ hp
    split at h
    · split at h
      · cases h; exact this
      · cases h
    · cases h; exact this
  · cases h; exact sym_suffix _ _

theorem string_suffix {r : List Byte} {q : W × List Byte} (h : stringL r = .ok q) : q.2 <:+ r := by
  rw [stringL] at h
  obtain ⟨p, hp, h⟩ := Res.bind_eq_ok.1 h
  split at h
  · cases h; exact str_suffix _ _ _ (Nat.le_refl _) _ hp
  · cases h

theorem close_suffix {o : Byte} {w : W} {inp : List Byte} {q : W × List Byte} (h : closeL o w inp = .ok q) : q.2 <:+ inp := by
  cases inp with
  | nil => cases h
  | cons x r =>
    rw [closeL] at h
    split at h
    · split at h
      · cases h; exact List.suffix_cons _ _
      · cases h
    · cases h

/-- what is left is a proper suffix of what follows the white space, if that is not empty -/
theorem suffix_all (n : Nat) :
    (∀ inp q, rd n inp = .ok q → q.2 <:+ inp ∧ ∀ x r, skipL false inp = x :: r → q.2 <:+ r) ∧ (∀ inp q, rdHash n inp = .ok q → q.2 <:+ inp) ∧
    (∀ o inp q, rdPair n o inp = .ok q → q.2 <:+ inp) ∧ (∀ o car inp q, rdRest n o car inp = .ok q → q.2 <:+ inp) ∧
    (∀ inp acc q, rdVec n inp acc = .ok q → q.2 <:+ inp) := by
  induction n with
  | zero => refine ⟨?_, ?_, ?_, ?_, ?_⟩ <;> intros <;> simp_all [rd, rdHash, rdPair, rdRest, rdVec]
  | succ n ih =>
    obtain ⟨ih1, ih2, ih3, ih4, ih5⟩ := ih
    refine ⟨?_, ?_, ?_, ?_, ?_⟩
    · intro inp q h
      rw [rd] at h
      have hs := skip_suffix false inp
      cases e : skipL false inp with
      | nil =>
        rw [e] at h hs
        cases h
        exact ⟨hs, nofun⟩
      | cons x r =>
        rw [e] at h hs
        simp only at h
        have key : q.2 <:+ r := by
          split at h
          · exact ih2 _ _ h
          split at h
          · exact sign_suffix h
          split at h
          · rename_i hd
            obtain ⟨p, hp, h⟩ := Res.bind_eq_ok.1 h
            cases h
            rw [numL, if_pos hd] at hp
            split at hp
            · cases hp
            · have := num_suffix _ _ _ _ hp; exact this
          split at h
          · exact string_suffix h
          split at h
          · obtain ⟨p, hp, h⟩ := Res.bind_eq_ok.1 h
            cases h; have := ih3 _ _ _ hp; exact this
          split at h
          · obtain ⟨p, hp, h⟩ := Res.bind_eq_ok.1 h
            cases h; exact (ih1 _ _ hp).1
          split at h
          · rename_i hd
            cases h
            rw [symL, if_neg (by simpa using hd)]
            exact sym_suffix _ _
          · cases h
        exact ⟨(key.trans (List.suffix_cons _ _)).trans hs, fun x' r' h' => by cases h'; exact key⟩
    · intro inp q h
      cases inp with
      | nil => cases h
      | cons x r =>
        rw [rdHash.eq_def] at h
        simp only at h
        refine List.IsSuffix.trans (l₂ := r) ?_ (List.suffix_cons _ _)
        split at h
        · cases h; exact List.suffix_refl _
        split at h
        · cases h; exact List.suffix_refl _
        split at h
        · obtain ⟨p, hp, h⟩ := Res.bind_eq_ok.1 h
          cases h; exact char_suffix hp
        split at h
        · obtain ⟨p, hp, h⟩ := Res.bind_eq_ok.1 h
          cases h; exact (ih1 _ _ hp).1
        split at h
        · obtain ⟨p, hp, h⟩ := Res.bind_eq_ok.1 h
          cases h; have := ih5 _ _ _ hp; exact this
        split at h
        · obtain ⟨p, hp, h⟩ := Res.bind_eq_ok.1 h
          cases h; exact (ih1 _ _ hp).1
        split at h
        · obtain ⟨p, hp, h⟩ := Res.bind_eq_ok.1 h
          cases h; have := hexNum_suffix hp; exact this
        split at h
        · have hs := skip_suffix false r
          split at h
          · cases h
          · rename_i y r' e
            rw [e] at hs
            obtain ⟨p, hp, h⟩ := Res.bind_eq_ok.1 h
            exact ((ih1 _ _ h).1.trans (ih1 _ _ hp).1).trans hs
        split at h
        · obtain ⟨r', hr, h⟩ := Res.bind_eq_ok.1 h
          obtain ⟨p, hp, h⟩ := Res.bind_eq_ok.1 h
          cases h; exact (ih1 _ _ hp).1.trans (block_suffix _ _ _ _ hr)
        · cases h
    · intro o inp q h
      rw [rdPair] at h
      have hs := skip_suffix false inp
      split at h
      · cases h
      · rename_i x r e
        rw [e] at hs
        split at h
        · split at h
          · cases h; exact (List.suffix_cons _ _).trans hs
          · cases h
        · obtain ⟨p, hp, h⟩ := Res.bind_eq_ok.1 h
          exact ((ih4 _ _ _ _ h).trans (ih1 _ _ hp).1).trans hs
    · intro o car inp q h
      rw [rdRest] at h
      have hs := skip_suffix false inp
      split at h
      · cases h
      · rename_i x r e
        rw [e] at hs
        split at h
        · obtain ⟨p, hp, h⟩ := Res.bind_eq_ok.1 h
          have hp' := (ih1 _ _ hp).1.trans hs
          split at h
          · split at h
            · obtain ⟨c, hcd, h⟩ := Res.bind_eq_ok.1 h
              exact (((close_suffix h).trans (skip_suffix _ _)).trans (ih1 _ _ hcd).1).trans hp'
            · obtain ⟨t, ht, h⟩ := Res.bind_eq_ok.1 h
              cases h
              exact (ih4 _ _ _ _ ht).trans hp'
          · cases h
        · obtain ⟨t, ht, h⟩ := Res.bind_eq_ok.1 h
          cases h
          exact (ih3 _ _ _ ht).trans hs
    · intro inp acc q h
      rw [rdVec] at h
      have hs := skip_suffix false inp
      split at h
      · cases h; exact (List.tail_suffix _).trans hs
      · obtain ⟨p, hp, h⟩ := Res.bind_eq_ok.1 h
        exact ((ih5 _ _ _ h).trans (ih1 _ _ hp).1).trans hs

/-! ### termination -/

/-- no vector and no block comment starts in the text (specification) -/
def NoLoop (inp : List Byte) : Prop := ∀ x r, (35#8 :: x :: r) <:+ inp → x ≠ 40#8 ∧ x ≠ 124#8

theorem NoLoop.suffix {a b : List Byte} (h : NoLoop b) (hs : a <:+ b) : NoLoop a := fun x r hx => h x r (hx.trans hs)

theorem sym_ne : ∀ (inp acc : List Byte) (num : Nat), numL acc num inp ≠ .oof
  | [], _, _ => by simp [numL]
  | b :: r, acc, num => by
    rw [numL]
    split
    · split
      · simp
      · exact sym_ne r _ _
    · split <;> simp

theorem hex_ne (s : Int) : ∀ (inp acc : List Byte) (num : Nat), hexLoop s acc num inp ≠ .oof
  | [], _, _ => by simp [hexLoop]
  | b :: r, acc, num => by
    rw [hexLoop]
    split
    · split
      · simp
      · exact hex_ne s r _ _
    · split <;> simp

theorem hexNum_ne (inp : List Byte) : hexNum inp ≠ .oof := by
  cases inp with
  | nil => exact hex_ne _ _ _ _
  | cons b r => rw [hexNum]; split; · exact hex_ne _ _ _ _
                split <;> exact hex_ne _ _ _ _

theorem str_ne : ∀ (m : Nat) (inp acc : List Byte), inp.length ≤ m → strL acc inp ≠ .oof := by
  intro m
  induction m with
  | zero =>
    intro inp acc hm
    have : inp = [] := List.length_eq_zero_iff.1 (by omega)
    subst this
    rw [strL.eq_def]; simp
  | succ m ih =>
    intro inp acc hm
    cases inp with
    | nil => rw [strL.eq_def]; simp
    | cons b r =>
      simp only [List.length_cons] at hm
      rw [strL.eq_def]
      simp only
      split
      · cases r with
        | nil => simp
        | cons c r =>
          simp only [List.length_cons] at hm
          simp only
          split; · exact ih _ _ (by omega)
          split; · exact ih _ _ (by omega)
          split; · exact ih _ _ (by omega)
          simp
      · split
        · simp
        · exact ih _ _ (by omega)

theorem sign_ne (s : Byte) (r : List Byte) : signL s r ≠ .oof := by
  rw [signL]
  refine Res.bind_ne_oof (by cases r <;> simp [digitP]) fun d _ => ?_
  split
  · refine Res.bind_ne_oof (sym_ne _ _ _) fun q _ => ?_
    split
    · split <;> simp
    · simp
  · simp

theorem string_ne (r : List Byte) : stringL r ≠ .oof := by
  rw [stringL]
  refine Res.bind_ne_oof (str_ne _ _ _ (Nat.le_refl _)) fun q _ => ?_
  split <;> simp

theorem expect_ne : ∀ s inp : List Byte, expectL s inp ≠ .oof
  | [], _ => by simp [expectL]
  | _ :: _, [] => by simp [expectL]
  | s :: ss, b :: r => by
    rw [expectL]
    split
    · exact expect_ne ss r
    · simp

theorem char_ne (inp : List Byte) : charL inp ≠ .oof := by
  cases inp with
  | nil => simp [charL]
  | cons b r =>
    have hp : plainChar b r ≠ .oof := by rw [plainChar]; split <;> simp
    rw [charL]
    split
    · split
      · exact Res.bind_ne_oof (expect_ne _ _) fun _ _ => by simp
      · exact hp
    · split
      · split
        · exact Res.bind_ne_oof (expect_ne _ _) fun _ _ => by simp
        · exact hp
      · exact hp

theorem close_ne (o : Byte) (w : W) (inp : List Byte) : closeL o w inp ≠ .oof := by
  cases inp with
  | nil => simp [closeL]
  | cons x r => rw [closeL]; split; · split <;> simp
                simp

theorem length_le {a b : List Byte} (h : a <:+ b) : a.length ≤ b.length := h.length_le

theorem ends_all (n : Nat) :
    (∀ inp, NoLoop inp → 3 * inp.length < n → rd n inp ≠ .oof) ∧
    (∀ inp, NoLoop (35#8 :: inp) → 3 * inp.length < n → rdHash n inp ≠ .oof) ∧
    (∀ o inp, NoLoop inp → 3 * inp.length + 1 < n → rdPair n o inp ≠ .oof) ∧
    (∀ o car inp, NoLoop inp → 3 * inp.length + 2 < n → rdRest n o car inp ≠ .oof) := by
  induction n with
  | zero => refine ⟨?_, ?_, ?_, ?_⟩ <;> intros <;> omega
  | succ n ih =>
    obtain ⟨ih1, ih2, ih3, ih4⟩ := ih
    refine ⟨?_, ?_, ?_, ?_⟩
    · intro inp hN hn
      rw [rd]
      have hs := skip_suffix false inp
      cases e : skipL false inp with
      | nil => simp
      | cons x r =>
        rw [e] at hs
        have hlen := length_le hs
        have hN1 := hN.suffix hs
        have hN2 := hN1.suffix (List.suffix_cons x r)
        simp only [List.length_cons] at hlen
        simp only
        split
        · rename_i hx; subst hx; exact ih2 _ hN1 (by omega)
        split; · exact sign_ne _ _
        split; · exact Res.bind_ne_oof (sym_ne _ _ _) fun _ _ => by simp
        split; · exact string_ne _
        split; · exact Res.bind_ne_oof (ih3 _ _ hN2 (by omega)) fun _ _ => by simp
        split; · exact Res.bind_ne_oof (ih1 _ hN2 (by omega)) fun _ _ => by simp
        split <;> simp
    · intro inp hN hn
      cases inp with
      | nil => simp [rdHash]
      | cons x r =>
        have hx := hN x r (List.suffix_refl _)
        have hN1 : NoLoop r := hN.suffix ((List.suffix_cons _ _).trans (List.suffix_cons _ _))
        simp only [List.length_cons] at hn
        rw [rdHash.eq_def]
        simp only
        split; · simp
        split; · simp
        split; · exact Res.bind_ne_oof (char_ne _) fun _ _ => by simp
        split; · exact Res.bind_ne_oof (ih1 _ hN1 (by omega)) fun _ _ => by simp
        split; · rename_i h; exact absurd h hx.1
        split; · exact Res.bind_ne_oof (ih1 _ hN1 (by omega)) fun _ _ => by simp
        split; · exact Res.bind_ne_oof (hexNum_ne _) fun _ _ => by simp
        split
        · have hs := skip_suffix false r
          cases e : skipL false r with
          | nil => simp
          | cons y r' =>
            rw [e] at hs
            have hl := length_le hs
            refine Res.bind_ne_oof (ih1 _ (hN1.suffix hs) (by omega)) fun q hq => ?_
            have hq' := ((suffix_all n).1 _ _ hq).1.trans hs
            have hl' := length_le hq'
            exact ih1 _ (hN1.suffix hq') (by omega)
        split; · rename_i h; exact absurd h hx.2
        simp
    · intro o inp hN hn
      rw [rdPair]
      have hs := skip_suffix false inp
      cases e : skipL false inp with
      | nil => simp
      | cons x r =>
        rw [e] at hs
        have hlen := length_le hs
        have hN1 := hN.suffix hs
        simp only
        split
        · split <;> simp
        · refine Res.bind_ne_oof (ih1 _ hN1 (by omega)) fun q hq => ?_
          have hq' := ((suffix_all n).1 _ _ hq).2 x r (by rw [← e, skip_idem])
          have hl' := length_le hq'
          simp only [List.length_cons] at hlen
          exact ih4 _ _ _ (hN1.suffix (hq'.trans (List.suffix_cons _ _))) (by omega)
    · intro o car inp hN hn
      rw [rdRest]
      have hs := skip_suffix false inp
      cases e : skipL false inp with
      | nil => simp
      | cons x r =>
        rw [e] at hs
        have hlen := length_le hs
        have hN1 := hN.suffix hs
        simp only
        split
        · refine Res.bind_ne_oof (ih1 _ hN1 (by omega)) fun q hq => ?_
          have hq' := ((suffix_all n).1 _ _ hq).2 x r (by rw [← e, skip_idem])
          have hl' := length_le hq'
          simp only [List.length_cons] at hlen
          have hN2 := hN1.suffix (hq'.trans (List.suffix_cons _ _))
          split
          · split
            · exact Res.bind_ne_oof (ih1 _ hN2 (by omega)) fun c _ => close_ne _ _ _
            · exact Res.bind_ne_oof (ih4 _ _ _ hN2 (by omega)) fun _ _ => by simp
          · simp
        · exact Res.bind_ne_oof (ih3 _ _ hN1 (by omega)) fun _ _ => by simp

end Minim.LRd

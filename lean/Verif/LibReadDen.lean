import Verif.LibReadLemmas

set_option autoImplicit false

/-! # The library reader reads what its grammar denotes (lemmas) -/

namespace Minim.LRd

open Minim.Rd (Dat digitB xdigitB numeral decVal hexVal quoteSym maxFix isOpen isClose matching)

/-! ### tokens in a layout -/

/-- a symbol that starts with a dot is read as such -/
theorem rd_dots {s inp : List Byte} {x : Byte} {r : List Byte} (hs : ∀ b ∈ s, SymChar b) (e : s ++ inp = x :: r) (hx : x = 46#8) (hne : s ≠ []) (hd : delimP inp = true)
    (n : Nat) : rd (n + 1) (x :: r) = .ok (.stx (.sym s), inp) := by
  cases s with
  | nil => exact absurd rfl hne
  | cons b s =>
    rw [List.cons_append] at e
    cases e
    subst hx
    have h1 := symL_ok _ [] inp hs hd
    rw [List.cons_append] at h1
    rw [rd_sym n (hs _ (by simp)) (by decide) (by decide) (by decide) (by decide) (by decide), h1, cstr_eq_self (fun b hb => (hs b (by simpa using hb)).2)]
    rfl

theorem atom_start {s : List Byte} {d : Dat} {f : Fol} (h : Atom s d f) :
    ∃ x r, s = x :: r ∧ spaceL x = false ∧ x ≠ 59#8 ∧ isClose x = false ∧ (x = 46#8 → s ≠ [46#8] ∧ (∀ b ∈ s, SymChar b) ∧ f = .delim) := by
  cases h with
  | dec ds hd =>
    obtain ⟨hne, hall, _⟩ := hd
    obtain ⟨b, r, rfl⟩ := List.exists_cons_of_ne_nil hne
    have hb := digit_facts b (hall b (by simp))
    exact ⟨b, r, rfl, hb.1, hb.2.1, hb.2.2.2.2.2.1, fun e => absurd e hb.2.2.2.2.2.2.1⟩
  | nsym ds c s hd hc hs hss =>
    obtain ⟨hne, hall, _⟩ := hd
    obtain ⟨b, r, rfl⟩ := List.exists_cons_of_ne_nil hne
    have hb := digit_facts b (hall b (by simp))
    exact ⟨b, _, rfl, hb.1, hb.2.1, hb.2.2.2.2.2.1, fun e => absurd e hb.2.2.2.2.2.2.1⟩
  | sym s hs hp hm =>
    obtain ⟨hdot, hall, hfirst⟩ := hs
    cases s with
    | nil => exact hfirst.elim
    | cons b r =>
      have hn := sym_facts b (hall b (by simp)).1
      exact ⟨b, r, rfl, hn.1, hn.2.1, hn.2.2.2.1, fun e => ⟨hdot, hall, rfl⟩⟩
  | str ps bs hp => exact ⟨34#8, ps ++ [34#8], rfl, by decide, by decide, by decide, fun e => absurd e (by decide)⟩
  | neg ds _ => exact ⟨_, _, rfl, by decide, by decide, by decide, fun e => absurd e (by decide)⟩
  | pos ds _ => exact ⟨_, _, rfl, by decide, by decide, by decide, fun e => absurd e (by decide)⟩
  | _ => exact ⟨_, _, rfl, by decide, by decide, by decide, fun e => absurd e (by decide)⟩

/-- not a dot, and if it starts with a dot then it is read as another symbol -/
def NoDot (x : Byte) (r : List Byte) : Prop :=
  x = 46#8 → ∃ s inp, s ≠ [46#8] ∧ ∀ n, rd (n + 1) (x :: r) = .ok (.stx (.sym s), inp)

theorem tok_start {t : Tok} (h : t.Starts) {inp : List Byte} (hf : t.follow inp) :
    ∃ x r, t.text ++ inp = x :: r ∧ spaceL x = false ∧ x ≠ 59#8 ∧ isClose x = false ∧ NoDot x r := by
  cases t with
  | atom s d f =>
    obtain ⟨x, r, e, h1, h2, h3, h4⟩ := atom_start h
    refine ⟨x, r ++ inp, by rw [Tok.text, e]; rfl, h1, h2, h3, fun hx => ?_⟩
    obtain ⟨h5, h6, rfl⟩ := h4 hx
    exact ⟨s, inp, h5, rd_dots h6 (by rw [e]; rfl) hx (by rw [e]; simp) (delimP_ok (f := .delim) hf (by simp))⟩
  | opn o =>
    have := open_facts o h
    exact ⟨o, inp, rfl, this.2.1, this.2.2.1, this.2.2.2.2.2.2.2.2.1, fun e => absurd e this.2.2.2.2.2.2.2.2.2⟩
  | cls c => exact h.elim
  | dot => exact h.elim
  | quote => exact ⟨39#8, inp, rfl, by decide, by decide, by decide, fun e => absurd e (by decide)⟩
  | vopn => exact ⟨35#8, 40#8 :: inp, rfl, by decide, by decide, by decide, fun e => absurd e (by decide)⟩
  | squote => exact ⟨35#8, 39#8 :: inp, rfl, by decide, by decide, by decide, fun e => absurd e (by decide)⟩
  | box => exact ⟨35#8, 38#8 :: inp, rfl, by decide, by decide, by decide, fun e => absurd e (by decide)⟩

/-- in front of a datum: neither the end of input nor a closing parenthesis nor a dot -/
theorem lay_start {t : Tok} {ts : List Tok} {inp rest : List Byte} (h : Lay (t :: ts) inp rest) (ht : t.Starts) :
    ∃ x r, skipL false inp = x :: r ∧ isClose x = false ∧ NoDot x r := by
  generalize hts : t :: ts = us at h
  induction h with
  | nil => cases hts
  | tok hf _ _ =>
    cases hts
    obtain ⟨x, r, e, h1, h2, h3, h4⟩ := tok_start ht hf
    exact ⟨x, r, by rw [e, skip_stop h1 h2], h3, h4⟩
  | ws hw _ ih => rw [skip_ws hw]; exact ih hts
  | block => exact ⟨35#8, _, skip_stop (by decide) (by decide) _, by decide, fun e => absurd e (by decide)⟩
  | datum => exact ⟨35#8, _, skip_stop (by decide) (by decide) _, by decide, fun e => absurd e (by decide)⟩

/-- in front of a token that starts no datum there is only white space -/
theorem lay_nonstart {t : Tok} {ts : List Tok} {inp rest : List Byte} (h : Lay (t :: ts) inp rest) (hn : ¬ t.Starts) {b : Byte} (hb : t.text = [b])
    (h1 : spaceL b = false) (h2 : b ≠ 59#8) : ∃ inp', skipL false inp = b :: inp' ∧ Lay ts inp' rest ∧ t.follow inp' ∧ inp'.length < inp.length := by
  generalize hts : t :: ts = us at h
  induction h with
  | nil => cases hts
  | tok hf hl _ =>
    cases hts
    rw [hb]
    exact ⟨_, skip_stop h1 h2 _, hl, hf, by simp⟩
  | ws hw _ ih =>
    obtain ⟨inp', e, hl, hf, hlen⟩ := ih hts
    exact ⟨inp', by rw [skip_ws hw]; exact e, hl, hf, by simp; omega⟩
  | block hs => cases hts; exact absurd hs hn
  | datum hs => cases hts; exact absurd hs hn

theorem den_obj_head {m : Mode} {ts : List Tok} {d : Dat} (h : Den m ts d) :
    ∃ t us, ts = t :: us ∧ (m = .obj → t.Starts) ∧ (∀ o, m = .tail o → t.Starts ∨ (o ∈ opens ∧ t = .cls (closing o))) := by
  induction h with
  | atom ha => exact ⟨_, _, rfl, fun _ => ha, nofun⟩
  | quote _ _ => exact ⟨_, _, rfl, fun _ => trivial, nofun⟩
  | squote _ _ => exact ⟨_, _, rfl, fun _ => trivial, nofun⟩
  | box _ _ => exact ⟨_, _, rfl, fun _ => trivial, nofun⟩
  | list ho _ _ => exact ⟨_, _, rfl, fun _ => ho, nofun⟩
  | vec _ _ => exact ⟨_, _, rfl, fun _ => trivial, nofun⟩
  | nil ho => exact ⟨_, _, rfl, nofun, fun o e => by cases e; exact Or.inr ⟨ho, rfl⟩⟩
  | cons _ _ ih _ =>
    obtain ⟨t, us, rfl, h1, _⟩ := ih
    exact ⟨t, _, rfl, nofun, fun _ _ => Or.inl (h1 rfl)⟩
  | dot _ _ _ ih _ =>
    obtain ⟨t, us, rfl, h1, _⟩ := ih
    exact ⟨t, _, rfl, nofun, fun _ _ => Or.inl (h1 rfl)⟩
  | vnil => exact ⟨_, _, rfl, nofun, nofun⟩
  | vcons _ _ ih _ =>
    obtain ⟨t, us, rfl, h1, _⟩ := ih
    exact ⟨t, _, rfl, nofun, nofun⟩

/-! ### the reader reads what the grammar denotes -/

/-- with enough fuel the outcome is `q` -/
def Ev {α : Type} (f : Nat → Res α) (q : α) : Prop := ∃ N, ∀ n, N ≤ n → f n = .ok q

theorem Ev.succ {α β : Type} {f : Nat → Res α} {g : Nat → Res β} {q : α} {q' : β} (h : Ev f q) (hg : ∀ n, f n = .ok q → g (n + 1) = .ok q') : Ev g q' := by
  obtain ⟨N, hN⟩ := h
  refine ⟨N + 1, fun n hn => ?_⟩
  obtain ⟨m, rfl⟩ : ∃ m, n = m + 1 := ⟨n - 1, by omega⟩
  exact hg m (hN m (by omega))

theorem Ev.succ2 {α β γ : Type} {f : Nat → Res α} {f' : Nat → Res β} {g : Nat → Res γ} {p : α} {q : β} {q' : γ} (h : Ev f p) (h' : Ev f' q)
    (hg : ∀ n, f n = .ok p → f' n = .ok q → g (n + 1) = .ok q') : Ev g q' := by
  obtain ⟨N, hN⟩ := h
  obtain ⟨N', hN'⟩ := h'
  refine ⟨N + N' + 1, fun n hn => ?_⟩
  obtain ⟨m, rfl⟩ : ∃ m, n = m + 1 := ⟨n - 1, by omega⟩
  exact hg m (hN m (by omega)) (hN' m (by omega))

/-- a syntax object for the datum `d` -/
def Is (d : Dat) (w : W) : Prop := w.isStx = true ∧ datum w = d

theorem is_toStx {d : Dat} {w : W} (h : datum w = d) : Is d (toStx w) := ⟨toStx_isStx w, by rw [datum_toStx, h]⟩

/-- reading a datum from inputs shorter than `K` -/
def Below (K : Nat) : Prop := ∀ (ts us : List Tok) (d : Dat) (inp rest : List Byte), inp.length < K → Den .obj ts d → Lay (ts ++ us) inp rest →
  ∃ w inp', Lay us inp' rest ∧ inp'.length ≤ inp.length ∧ Is d w ∧ Ev (fun n => rd n inp) (w, inp')

theorem lay_obj {K : Nat} (H : Below K) {t : Tok} (ht : t.Starts) {ts : List Tok} {rest : List Byte} : ∀ (m : Nat) (inp : List Byte), inp.length ≤ m →
    inp.length ≤ K → Lay (t :: ts) inp rest → ∃ inp', Lay ts inp' rest ∧ t.follow inp' ∧ (t.text ++ inp').length ≤ inp.length ∧
      ∀ q : W × List Byte, q.1.isStx = true → Ev (fun n => rd n (t.text ++ inp')) q → Ev (fun n => rd n inp) q := by
  intro m
  induction m with
  | zero =>
    intro inp hm _ h
    obtain ⟨x, r, e, _⟩ := lay_start h ht
    have : inp = [] := List.length_eq_zero_iff.1 (by omega)
    subst this
    simp [skipL] at e
  | succ m ih =>
    intro inp hm hK h
    cases h with
    | tok hf hl => exact ⟨_, hl, hf, Nat.le_refl _, fun q _ hq => hq⟩
    | @ws _ _ w inp _ hw hl =>
      have hpos : 1 ≤ w.length := by cases hw <;> simp
      simp only [List.length_append] at hm hK
      obtain ⟨inp', h1, h2, h3, h4⟩ := ih inp (by omega) (by omega) hl
      refine ⟨inp', h1, h2, by simp only [List.length_append] at h3 ⊢; omega, fun q hs hq => ?_⟩
      obtain ⟨N, hN⟩ := h4 q hs hq
      refine ⟨N, fun n hn => ?_⟩
      have := hN n hn
      try simp only at this ⊢
      rw [← rd_skip, skip_ws hw, rd_skip, this]
    | @block _ _ body inp _ hs hb hl =>
      simp only [List.length_cons, List.length_append] at hm hK
      obtain ⟨inp', h1, h2, h3, h4⟩ := ih inp (by omega) (by omega) hl
      refine ⟨inp', h1, h2, by simp only [List.length_cons, List.length_append] at h3 ⊢; omega, fun q hst hq => ?_⟩
      have hev := h4 q hst hq
      have hblk : Ev (fun n => blockL n 1 (body ++ (124#8 :: 35#8 :: inp))) inp := blockL_end hb inp
      have h5 : Ev (fun n => rdHash n (124#8 :: (body ++ (124#8 :: 35#8 :: inp)))) q := hblk.succ2 hev (fun n hn hn' => by
        try simp only at hn hn' ⊢
        rw [rdHash, if_neg (by decide), if_neg (by decide), if_neg (by decide), if_neg (by decide), if_neg (by decide), if_neg (by decide),
          if_neg (by decide), if_neg (by decide), if_pos rfl, hn, Res.ok_bind, hn', Res.ok_bind, toStx_stx hst]; rfl)
      exact h5.succ (fun n hn => by rw [rd_hash, hn])
    | @datum _ _ us d inp _ hs hd hl =>
      simp only [List.length_cons] at hm hK
      obtain ⟨w, inp1, h1, h2, _, h3⟩ := H us (t :: ts) d inp rest (by omega) hd hl
      obtain ⟨inp', h4, h5, h6, h7⟩ := ih inp1 (by omega) (by omega) h1
      refine ⟨inp', h4, h5, by simp only [List.length_cons, List.length_append] at h6 ⊢; omega, fun q hst hq => ?_⟩
      obtain ⟨t', us', rfl, hst', _⟩ := den_obj_head hd
      obtain ⟨x, r, ex, _⟩ := lay_start hl (hst' rfl)
      have h8 : Ev (fun n => rdHash n (59#8 :: inp)) q := h3.succ2 (h7 q hst hq) (fun n hn hn' => by
        try simp only at hn hn' ⊢
        rw [rdHash, if_neg (by decide), if_neg (by decide), if_neg (by decide), if_neg (by decide), if_neg (by decide), if_neg (by decide),
          if_neg (by decide), if_pos rfl, ex]
        simp only
        rw [← ex, rd_skip, hn, Res.ok_bind]
        exact hn')
      exact h8.succ (fun n hn => by rw [rd_hash, hn])

/-- the claim for each mode -/
def Claim (K : Nat) : Mode → List Tok → Dat → Prop
  | .obj, ts, d => ∀ (us : List Tok) (inp rest : List Byte), inp.length ≤ K → Lay (ts ++ us) inp rest →
      ∃ w inp', Lay us inp' rest ∧ inp'.length ≤ inp.length ∧ Is d w ∧ Ev (fun n => rd n inp) (w, inp')
  | .tail o, ts, d => ∀ (us : List Tok) (inp rest : List Byte), inp.length ≤ K → Lay (ts ++ us) inp rest →
      ∃ w inp', Lay us inp' rest ∧ inp'.length ≤ inp.length ∧ datum w = d ∧ Ev (fun n => rdPair n o inp) (w, inp')
  | .vec, ts, d => ∀ (us : List Tok) (inp rest : List Byte), inp.length ≤ K → Lay (ts ++ us) inp rest →
      ∃ l inp', Lay us inp' rest ∧ inp'.length ≤ inp.length ∧ datum (listW l) = d ∧
        ∀ acc : List W, Ev (fun n => rdVec n inp acc) (.vec (listW (acc.reverse ++ l)), inp')

theorem rdPair_start {inp : List Byte} {x : Byte} {r : List Byte} (hx : skipL false inp = x :: r) (h1 : isClose x = false)
    (n : Nat) (o : Byte) : rdPair (n + 1) o inp = (rd n inp >>= fun q => rdRest n o q.1 q.2) := by
  rw [rdPair, hx]
  simp only
  rw [h1, if_neg (by simp), ← hx, rd_skip]

/-- behind an element, unless there is a dot, the rest is read as a tail -/
theorem rest_of_pair {inp inp' : List Byte} {x : Byte} {r : List Byte} {o : Byte} {w : W} (car : W) (hx : skipL false inp = x :: r)
    (hc : isClose x = true → x ≠ 46#8) (hd : NoDot x r)
    (h : Ev (fun n => rdPair n o inp) (w, inp')) : Ev (fun n => rdRest n o car inp) (.cons car w, inp') := by
  by_cases h46 : x = 46#8
  · obtain ⟨s, inp2, hs, hr⟩ := hd h46
    have hcl : isClose x = false := by
      cases e : isClose x with
      | false => rfl
      | true => exact absurd h46 (hc e)
    obtain ⟨N, hN⟩ := h
    refine ⟨N + 2, fun n hn => ?_⟩
    obtain ⟨m, rfl⟩ : ∃ m, n = m + 2 := ⟨n - 2, by omega⟩
    have h1 := hN (m + 2) (by omega)
    show rdRest (m + 2) o car inp = _
    change rdPair (m + 2) o inp = _ at h1
    rw [rdPair_start hx hcl, ← rd_skip, hx, hr m, Res.ok_bind] at h1
    rw [rdRest, hx]
    simp only
    rw [if_pos h46, hr m, Res.ok_bind]
    simp only
    rw [if_neg (by simpa using hs), h1]
    rfl
  · refine h.succ (fun n hn => ?_)
    rw [rdRest, hx]
    simp only
    rw [if_neg h46, ← hx, rdPair_skip, hn]
    rfl

theorem claim_all {K : Nat} (H : Below K) {m : Mode} {ts : List Tok} {d : Dat} (h : Den m ts d) : Claim K m ts d := by
  induction h with
  | @atom s d f ha =>
    intro us inp rest hK hl
    obtain ⟨inp', h1, h2, h3, h4⟩ := lay_obj H (t := .atom s d f) ha _ inp (Nat.le_refl _) hK hl
    obtain ⟨w, hw, hwd, hr⟩ := read_atom ha h2
    refine ⟨w, inp', h1, by simp at h3; omega, ⟨hw, hwd⟩, h4 (w, inp') hw ⟨2, fun n hn => ?_⟩⟩
    obtain ⟨k, rfl⟩ : ∃ k, n = k + 2 := ⟨n - 2, by omega⟩
    exact hr k
  | @quote ts d _ ih =>
    intro us inp rest hK hl
    obtain ⟨inp1, h1, h2, h3, h4⟩ := lay_obj H (t := .quote) trivial _ inp (Nat.le_refl _) hK hl
    simp only [Tok.text, List.length_append, List.length_cons, List.length_nil] at h3
    obtain ⟨w, inp', h5, h6, hw, h7⟩ := ih us inp1 rest (by omega) h1
    refine ⟨toStx (two (.sym quoteSym) w), inp', h5, by omega, is_toStx (by simp [two, datum, hw.2]), h4 (_, _) (toStx_isStx _) (h7.succ (fun n hn => ?_))⟩
    simp only [Tok.text, List.singleton_append] at hn ⊢
    rw [rd, skip_stop (by decide) (by decide)]
    simp only
    rw [if_neg (by decide), if_neg (by decide), if_neg (by decide), if_neg (by decide), if_neg (by decide), if_pos trivial, hn]; rfl
  | @squote ts d _ ih =>
    intro us inp rest hK hl
    obtain ⟨inp1, h1, h2, h3, h4⟩ := lay_obj H (t := .squote) trivial _ inp (Nat.le_refl _) hK hl
    simp only [Tok.text, List.length_append, List.length_cons, List.length_nil] at h3
    obtain ⟨w, inp', h5, h6, hw, h7⟩ := ih us inp1 rest (by omega) h1
    have h8 : Ev (fun n => rdHash n (39#8 :: inp1)) (toStx (two (.sym syntaxSym) w), inp') := h7.succ (fun n hn => by
      try simp only at hn ⊢
      rw [rdHash, if_neg (by decide), if_neg (by decide), if_neg (by decide), if_pos rfl, hn]; rfl)
    exact ⟨toStx (two (.sym syntaxSym) w), inp', h5, by omega, is_toStx (by simp [two, datum, hw.2]), h4 (_, _) (toStx_isStx _) (h8.succ (fun n hn => by
      
      exact (rd_hash n _).trans hn))⟩
  | @box ts d _ ih =>
    intro us inp rest hK hl
    obtain ⟨inp1, h1, h2, h3, h4⟩ := lay_obj H (t := .box) trivial _ inp (Nat.le_refl _) hK hl
    simp only [Tok.text, List.length_append, List.length_cons, List.length_nil] at h3
    obtain ⟨w, inp', h5, h6, hw, h7⟩ := ih us inp1 rest (by omega) h1
    have h8 : Ev (fun n => rdHash n (38#8 :: inp1)) (toStx (.box w), inp') := h7.succ (fun n hn => by
      try simp only at hn ⊢
      rw [rdHash, if_neg (by decide), if_neg (by decide), if_neg (by decide), if_neg (by decide), if_neg (by decide), if_pos rfl, hn]; rfl)
    exact ⟨toStx (.box w), inp', h5, by omega, is_toStx (by simp [datum, hw.2]), h4 (_, _) (toStx_isStx _) (h8.succ (fun n hn => by
      
      exact (rd_hash n _).trans hn))⟩
  | @list o ts d ho _ ih =>
    intro us inp rest hK hl
    obtain ⟨inp1, h1, h2, h3, h4⟩ := lay_obj H (t := .opn o) ho _ inp (Nat.le_refl _) hK hl
    simp only [Tok.text, List.length_append, List.length_cons, List.length_nil] at h3
    obtain ⟨w, inp', h5, h6, hw, h7⟩ := ih us inp1 rest (by omega) h1
    refine ⟨toStx w, inp', h5, by omega, is_toStx hw, h4 (_, _) (toStx_isStx _) (h7.succ (fun n hn => ?_))⟩
    have hof := open_facts o ho
    simp only [Tok.text, List.singleton_append] at hn ⊢
    rw [rd, skip_stop hof.2.1 hof.2.2.1]
    simp only
    rw [if_neg hof.2.2.2.1, if_neg (by simp [hof.2.2.2.2.1, hof.2.2.2.2.2.1]), hof.2.2.2.2.2.2.1, if_neg (by simp), if_neg hof.2.2.2.2.2.2.2.1, hof.1, if_pos rfl, hn]
    rfl
  | @vec ts d _ ih =>
    intro us inp rest hK hl
    obtain ⟨inp1, h1, h2, h3, h4⟩ := lay_obj H (t := .vopn) trivial _ inp (Nat.le_refl _) hK hl
    simp only [Tok.text, List.length_append, List.length_cons, List.length_nil] at h3
    obtain ⟨l, inp', h5, h6, hw, h7⟩ := ih us inp1 rest (by omega) h1
    have h8 : Ev (fun n => rdHash n (40#8 :: inp1)) (toStx (.vec (listW l)), inp') := (h7 []).succ (fun n hn => by
      try simp only at hn ⊢
      rw [rdHash, if_neg (by decide), if_neg (by decide), if_neg (by decide), if_neg (by decide), if_pos rfl, hn]; rfl)
    exact ⟨toStx (.vec (listW l)), inp', h5, by omega, is_toStx (by simp [datum, hw]), h4 (_, _) (toStx_isStx _) (h8.succ (fun n hn => by
      
      exact (rd_hash n _).trans hn))⟩
  | @nil o ho =>
    intro us inp rest hK hl
    have hcf := closing_facts o ho
    obtain ⟨inp', h1, h2, _, h4⟩ := lay_nonstart (t := .cls (closing o)) hl (fun h => h) rfl hcf.2.2.1 hcf.2.2.2.1
    refine ⟨.null, inp', h2, by omega, rfl, 1, fun n hn => ?_⟩
    obtain ⟨k, rfl⟩ : ∃ k, n = k + 1 := ⟨n - 1, by omega⟩
    simp only
    rw [rdPair, h1]
    simp only
    rw [hcf.1, hcf.2.1]
    rfl
  | @cons o ts us d e hd he ih1 ih2 =>
    intro vs inp rest hK hl
    rw [List.append_assoc] at hl
    obtain ⟨w, inp1, h1, h2, hw, h3⟩ := ih1 (us ++ vs) inp rest hK hl
    obtain ⟨w', inp', h4, h5, hw', h6⟩ := ih2 vs inp1 rest (by omega) h1
    obtain ⟨t, ts', rfl, hst, _⟩ := den_obj_head hd
    obtain ⟨x, r, ex, hx1, _⟩ := lay_start hl (hst rfl)
    obtain ⟨t', us', rfl, _, htl⟩ := den_obj_head he
    have hy : ∃ y r', skipL false inp1 = y :: r' ∧ (isClose y = true → y ≠ 46#8) ∧ NoDot y r' := by
      rcases htl o rfl with hs | ⟨ho, rfl⟩
      · obtain ⟨y, r', e1, e2, e3⟩ := lay_start h1 hs
        exact ⟨y, r', e1, by simp [e2], e3⟩
      · have hcf := closing_facts o ho
        obtain ⟨inp2, e1, _⟩ := lay_nonstart (t := .cls (closing o)) h1 (fun h => h) rfl hcf.2.2.1 hcf.2.2.2.1
        exact ⟨_, inp2, e1, fun _ => hcf.2.2.2.2, fun e => absurd e hcf.2.2.2.2⟩
    obtain ⟨y, r', ey, hy1, hy2⟩ := hy
    have h7 := rest_of_pair w ey hy1 hy2 h6
    refine ⟨.cons w w', inp', h4, by omega, by simp [datum, hw.2, hw'], h3.succ2 h7 (fun n hn hn' => ?_)⟩
    try simp only at hn hn' ⊢
    rw [rdPair_start ex hx1, hn, Res.ok_bind]
    exact hn'
  | @dot o ts us d e ho hd he ih1 ih2 =>
    intro vs inp rest hK hl
    have hcf := closing_facts o ho
    rw [List.append_assoc] at hl
    obtain ⟨w, inp1, h1, h2, hw, h3⟩ := ih1 _ inp rest hK hl
    rw [List.cons_append] at h1
    obtain ⟨inp2, e2, hl2, hfol, hlen2⟩ := lay_nonstart (t := .dot) h1 (fun h => h) rfl (by decide) (by decide)
    rw [List.append_assoc] at hl2
    obtain ⟨w', inp3, h4, h5, hw', h6⟩ := ih2 _ inp2 rest (by omega) hl2
    obtain ⟨inp', e3, hl3, _, hlen3⟩ := lay_nonstart (t := .cls (closing o)) h4 (fun h => h) rfl hcf.2.2.1 hcf.2.2.2.1
    obtain ⟨t, ts', rfl, hst, _⟩ := den_obj_head hd
    obtain ⟨x, r, ex, hx1, _⟩ := lay_start hl (hst rfl)
    have hdp := delimP_ok (f := .inner) hfol (by simp)
    have hdot : ∀ n, rd (n + 1) (46#8 :: inp2) = .ok (.stx (.sym [46#8]), inp2) :=
      rd_dots (s := [46#8]) (by intro b hb; simp at hb; subst hb; exact ⟨by decide, by decide⟩) rfl rfl (by simp) hdp
    have h7 : Ev (fun n => rdRest n o w inp1) (.cons w w', inp') := by
      obtain ⟨N, hN⟩ := h6
      refine ⟨N + 2, fun n hn => ?_⟩
      obtain ⟨m, rfl⟩ : ∃ m, n = m + 2 := ⟨n - 2, by omega⟩
      have := hN (m + 1) (by omega)
      simp only at this ⊢
      rw [rdRest, e2]
      simp only
      rw [if_pos trivial, hdot m, Res.ok_bind]
      simp only
      rw [if_pos trivial, this, Res.ok_bind]
      simp only
      rw [e3, closeL, hcf.1, hcf.2.1]
      rfl
    refine ⟨.cons w w', inp', hl3, by omega, by simp [datum, hw.2, hw'.2], h3.succ2 h7 (fun n hn hn' => ?_)⟩
    try simp only at hn hn' ⊢
    rw [rdPair_start ex hx1, hn, Res.ok_bind]
    exact hn'
  | vnil =>
    intro us inp rest hK hl
    obtain ⟨inp', h1, h2, _, h4⟩ := lay_nonstart (t := .cls 41#8) hl (fun h => h) rfl (by decide) (by decide)
    refine ⟨[], inp', h2, by omega, rfl, fun acc => ⟨1, fun n hn => ?_⟩⟩
    obtain ⟨k, rfl⟩ : ∃ k, n = k + 1 := ⟨n - 1, by omega⟩
    simp only
    rw [rdVec, h1]
    simp
  | @vcons ts us d e hd he ih1 ih2 =>
    intro vs inp rest hK hl
    rw [List.append_assoc] at hl
    obtain ⟨w, inp1, h1, h2, hw, h3⟩ := ih1 (us ++ vs) inp rest hK hl
    obtain ⟨l, inp', h4, h5, hl', h6⟩ := ih2 vs inp1 rest (by omega) h1
    obtain ⟨t, ts', rfl, hst, _⟩ := den_obj_head hd
    obtain ⟨x, r, ex, hx1, _⟩ := lay_start hl (hst rfl)
    refine ⟨w :: l, inp', h4, by omega, by simp [listW, datum, hw.2, hl'], fun acc => ?_⟩
    refine h3.succ2 (h6 (w :: acc)) (fun n hn hn' => ?_)
    try simp only at hn hn' ⊢
    have hx : ¬ (skipL false inp).head? = some 41#8 := by
      rw [ex]; simp only [List.head?_cons, Option.some.injEq]
      rintro rfl; exact absurd hx1 (by decide)
    rw [rdVec, if_neg hx, rd_skip, hn, Res.ok_bind]
    simp only
    rw [hn']
    simp

theorem below_all (K : Nat) : Below K := by
  induction K with
  | zero => intro ts us d inp rest h; omega
  | succ K ih =>
    intro ts us d inp rest hlen hd hl
    exact claim_all ih hd us inp rest (by omega) hl

/-- reading a layout of a datum's tokens gives the datum and stops right behind it -/
theorem read_layout {ts us : List Tok} {d : Dat} {inp rest : List Byte} (hd : Den .obj ts d) (hl : Lay (ts ++ us) inp rest) :
    ∃ w inp', Lay us inp' rest ∧ Is d w ∧ Ev (fun n => rd n inp) (w, inp') := by
  obtain ⟨w, inp', h1, _, h2, h3⟩ := below_all (inp.length + 1) ts us d inp rest (by omega) hd hl
  exact ⟨w, inp', h1, h2, h3⟩

theorem lay_nil {inp rest : List Byte} (h : Lay [] inp rest) : inp = rest := by cases h; rfl

/-- the data of a file are read one by one -/
theorem file_all {rest : List Byte} (he : End rest) {ts : List Tok} {ds : List Dat} (h : File ts ds) : ∀ (inp : List Byte), Lay ts inp rest →
    ∃ ws, ws.map datum = ds ∧ (∀ w ∈ ws, w.isStx = true) ∧ ∃ N, ∀ n k acc, N ≤ n → ds.length < k → rdFile n k inp acc = .ok (acc.reverse ++ ws) := by
  induction h with
  | nil =>
    intro inp hl
    cases lay_nil hl
    refine ⟨[], rfl, by simp, 1, fun n k acc hn hk => ?_⟩
    obtain ⟨n, rfl⟩ : ∃ m, n = m + 1 := ⟨n - 1, by omega⟩
    obtain ⟨k, rfl⟩ : ∃ m, k = m + 1 := ⟨k - 1, by simp at hk; omega⟩
    rw [rdFile, rd, skip_end he]
    simp only
    rw [Res.ok_bind]
    simp
  | cons hd _ ih =>
    intro inp hl
    obtain ⟨w, inp1, h1, hw, N, hN⟩ := read_layout hd hl
    obtain ⟨ws, e1, e2, N', hN'⟩ := ih inp1 h1
    refine ⟨w :: ws, by simp [e1, hw.2], by simpa [hw.1] using e2, N + N', fun n k acc hn hk => ?_⟩
    obtain ⟨k, rfl⟩ : ∃ m, k = m + 1 := ⟨k - 1, by simp at hk; omega⟩
    have := hN n (by omega)
    simp only at this
    have hne : w ≠ .eof := by rintro rfl; cases hw.1
    rw [rdFile, this, Res.ok_bind]
    simp only
    rw [if_neg hne, hN' n k _ (by omega) (by simp at hk; omega)]
    simp

end Minim.LRd

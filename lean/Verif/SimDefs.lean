import Verif.SimCall

set_option autoImplicit false

/-!
# Compiled code and reference semantics: the statement of the simulation and its building blocks
-/

namespace Minim.Jit

open Minim.Sx Minim.Core

/-- The machine is still in the same frame, `len` instructions further. -/
structure Mid (busy : Bool) (k : Nat) (s : St) (len : Nat) (s1 : St) : Prop where
  code : s1.code = s.code
  pc : s1.pc = s.pc + len
  env : s1.env = s.env
  cont : s1.cont = s.cont
  busyF : busy = true → s1.args = s.args ∧ s1.cp = s.cp
  clean : busy = false → s1.args = []
  pres : Pres k s s1

/-- The machine has computed the result: not in tail position, it is at the end of the code of the expression; in tail position, it is about to return. -/
structure Fin (e0 : Nat) (t busy : Bool) (k : Nat) (s : St) (len : Nat) (vs : List RV) (σ : RS) (s' : St) : Prop where
  res : ResRel e0 vs s'
  st : SRel e0 σ s'
  cont : s'.cont = s.cont
  pres : Pres k s s'
  mid : t = false → Mid busy k s len s'
  ret : t = true → s'.code[s'.pc]? = some .ret

/-- What is required at the start of the code of an expression. -/
structure Pre (e0 : Nat) (loc : Option (List Sym)) (sc : Scope) (ρ : REnv) (F : Sym → Prop) (σ : RS) (busy : Bool) (bound : Nat) (s : St) : Prop where
  scok : ScOK loc sc ρ F
  slots : sc.length + bound ≤ s.slots
  fr : FrRel e0 ρ sc s
  st : SRel e0 σ s
  clean : busy = false → s.args = []

theorem Mid.refl {busy : Bool} {k : Nat} {s : St} (h : busy = false → s.args = []) : Mid busy k s 0 s :=
  ⟨rfl, rfl, rfl, rfl, fun _ => ⟨rfl, rfl⟩, h, Pres.refl _ _⟩

theorem Mid.trans {busy : Bool} {k : Nat} {a b c : St} {m n : Nat} (h1 : Mid busy k a m b) (h2 : Mid busy k b n c) : Mid busy k a (m + n) c :=
  ⟨h2.code.trans h1.code, by rw [h2.pc, h1.pc]; omega, h2.env.trans h1.env, h2.cont.trans h1.cont,
    fun h => ⟨(h2.busyF h).1.trans (h1.busyF h).1, (h2.busyF h).2.trans (h1.busyF h).2⟩, h2.clean, h1.pres.trans h2.pres h1.env⟩

/-- Advancing with the frame unchanged. -/
theorem Mid.adv {busy : Bool} {k : Nat} {a b c : St} {m n : Nat} (h1 : Mid busy k a m b) (hc : c.code = b.code) (hp : c.pc = a.pc + n) (he : c.env = b.env)
    (hk : c.cont = b.cont) (ha : c.args = b.args) (hcp : c.cp = b.cp) (hpr : Pres k b c) : Mid busy k a n c :=
  ⟨hc.trans h1.code, hp, he.trans h1.env, hk.trans h1.cont, fun h => ⟨ha.trans (h1.busyF h).1, hcp.trans (h1.busyF h).2⟩,
    fun h => ha.trans (h1.clean h), h1.pres.trans hpr h1.env⟩

theorem Mid.mono {busy : Bool} {k k' : Nat} {s s1 : St} {len : Nat} (h : Mid busy k s len s1) (hk : k' ≤ k) : Mid busy k' s len s1 :=
  ⟨h.code, h.pc, h.env, h.cont, h.busyF, h.clean, h.pres.mono hk⟩

/-- After a first part in the same frame. -/
theorem Fin.after {e0 : Nat} {t busy : Bool} {k : Nat} {s s1 s' : St} {m n len : Nat} {vs : List RV} {σ : RS} (h1 : Mid busy k s m s1)
    (h2 : Fin e0 t busy k s1 n vs σ s') (hl : len = m + n) : Fin e0 t busy k s len vs σ s' :=
  ⟨h2.res, h2.st, h2.cont.trans h1.cont, h1.pres.trans h2.pres h1.env, fun h => hl ▸ h1.trans (h2.mid h), h2.ret⟩

theorem Fin.mono {e0 : Nat} {t busy : Bool} {k k' : Nat} {s s' : St} {n : Nat} {vs : List RV} {σ : RS} (h : Fin e0 t busy k s n vs σ s') (hk : k' ≤ k) :
    Fin e0 t busy k' s n vs σ s' := ⟨h.res, h.st, h.cont, h.pres.mono hk, fun ht => (h.mid ht).mono hk, h.ret⟩

/-- A result followed by the return instruction if in tail position. -/
theorem Fin.tail {e0 : Nat} {t busy : Bool} {k : Nat} {s s1 : St} {m len : Nat} {vs : List RV} {σ : RS} {items : List Item} {tm : List Code}
    (h1 : Mid busy k s m s1) (hr : ResRel e0 vs s1) (hs : SRel e0 σ s1) (hh : Here items tm s1.code s1.pc (tailRet t))
    (hl : len = m + (instrs (tailRet t)).length) : Fin e0 t busy k s len vs σ s1 := by
  refine ⟨hr, hs, h1.cont, h1.pres, ?_, ?_⟩
  · rintro rfl
    simp only [tailRet, Bool.false_eq_true, if_false, instrs, List.length_nil, Nat.add_zero] at hl
    rw [hl]; exact h1
  · rintro rfl
    rw [tailRet, if_pos rfl] at hh
    exact hh.fetch

theorem Pre.next {e0 : Nat} {loc : Option (List Sym)} {sc : Scope} {ρ : REnv} {F G : Sym → Prop} {σ σ1 : RS} {busy busy' : Bool} {b b' : Nat} {s s1 : St}
    (h : Pre e0 loc sc ρ F σ busy b s) (he : s1.env = s.env) (hp : Pres sc.length s s1) (hs : SRel e0 σ1 s1) (hg : ∀ x, G x → F x) (hb : b' ≤ b)
    (hc : busy' = false → s1.args = []) : Pre e0 loc sc ρ G σ1 busy' b' s1 :=
  ⟨h.scok.mono hg, by have := hp.slots he; have := h.slots; omega, h.fr.pres hp he, hs, hc⟩

theorem resRel_single {e0 : Nat} {vs : List RV} {v : RV} {s : St} (h : ResRel e0 vs s) (hv : single vs = .ok v) : VR e0 v s.res := by
  rcases h with ⟨u, rfl, h⟩ | ⟨h1, _, _⟩
  · cases hv; exact h
  · match vs, hv with
    | [u], _ => exact absurd rfl h1

theorem resRel_one {e0 : Nat} {v : RV} {s : St} (h : VR e0 v s.res) : ResRel e0 [v] s := .inl ⟨v, rfl, h⟩

theorem ResRel.congr {e0 : Nat} {vs : List RV} {s s' : St} (h : ResRel e0 vs s) (h1 : s'.res = s.res) (h2 : s'.vals = s.vals) : ResRel e0 vs s' := by
  rcases h with ⟨v, a, b⟩ | ⟨a, b, c⟩
  · exact .inl ⟨v, a, by rw [h1]; exact b⟩
  · exact .inr ⟨a, by rw [h1]; exact b, by rw [h2]; exact c⟩

/-- The simulation for expressions: evaluation with fuel `n`. -/
def SimE (host : Host) (P : Prims) (e0 n : Nat) : Prop :=
  ∀ (e : E) (sc : Scope) (t busy : Bool) (nl : Nat) (tm0 : List Code) (is : List Item) (nl' : Nat) (tm1 : List Code) (loc : Option (List Sym)) (ρ : REnv)
    (σ : RS) (vs : List RV) (σ' : RS) (s : St) (items : List Item) (tm : List Code),
    compile e sc t nl tm0 = .ok (is, nl', tm1) → hasClauses e = true → okE busy loc e = true → (t = true → busy = false) → ev P n ρ e σ = .ok (vs, σ') →
    Here items tm s.code s.pc is → (∃ new, tm = new ++ tm1) → Pre e0 loc sc ρ (fun x => Free x e) σ busy (boundVars e []).1.length s →
    ∃ s', Steps host s s' ∧ Fin e0 t busy sc.length s (instrs is).length vs σ' s'

/-- The simulation for bodies. -/
def SimB (host : Host) (P : Prims) (e0 n : Nat) : Prop :=
  ∀ (es : List E) (sc : Scope) (t busy : Bool) (nl : Nat) (tm0 : List Code) (is : List Item) (nl' : Nat) (tm1 : List Code) (loc : Option (List Sym)) (ρ : REnv)
    (σ : RS) (vs : List RV) (σ' : RS) (s : St) (items : List Item) (tm : List Code),
    compileBody es sc t nl tm0 = .ok (is, nl', tm1) → hasClausesL es = true → okL busy loc es = true → (t = true → busy = false) →
    evBody P n ρ es σ = .ok (vs, σ') →
    Here items tm s.code s.pc is → (∃ new, tm = new ++ tm1) → Pre e0 loc sc ρ (fun x => ∃ e ∈ es, Free x e) σ busy (boundVarsSeq es []).1.length s →
    ∃ s', Steps host s s' ∧ Fin e0 t busy sc.length s (instrs is).length vs σ' s'

/-- The simulation for arguments: their values are pushed. -/
def SimA (host : Host) (P : Prims) (e0 n : Nat) : Prop :=
  ∀ (es : List E) (sc : Scope) (nl : Nat) (tm0 : List Code) (is : List Item) (nl' : Nat) (tm1 : List Code) (loc : Option (List Sym)) (ρ : REnv)
    (σ : RS) (vs : List RV) (σ' : RS) (s : St) (items : List Item) (tm : List Code),
    compileArgs es sc nl tm0 = .ok (is, nl', tm1) → hasClausesL es = true → okL true loc es = true → evArgs P n ρ es σ = .ok (vs, σ') →
    Here items tm s.code s.pc is → (∃ new, tm = new ++ tm1) → Pre e0 loc sc ρ (fun x => ∃ e ∈ es, Free x e) σ true (boundVarsSeq es []).1.length s →
    ∃ s' ws, Steps host s s' ∧ s'.code = s.code ∧ s'.pc = s.pc + (instrs is).length ∧ s'.env = s.env ∧ s'.cont = s.cont ∧ s'.cp = s.cp ∧
      s'.args = s.args ++ ws ∧ List.Forall₂ (VR e0) vs ws ∧ SRel e0 σ' s' ∧ Pres sc.length s s'

/-- The simulation for multiple values. -/
def SimV (host : Host) (P : Prims) (e0 n : Nat) : Prop :=
  ∀ (es : List E) (sc : Scope) (t : Bool) (nl : Nat) (tm0 : List Code) (is : List Item) (nl' : Nat) (tm1 : List Code) (loc : Option (List Sym)) (ρ : REnv)
    (σ : RS) (vs : List RV) (σ' : RS) (s : St) (items : List Item) (tm : List Code),
    compile (.mvvals es) sc t nl tm0 = .ok (is, nl', tm1) → hasClausesL es = true → okV loc es = true → evArgs P n ρ es σ = .ok (vs, σ') →
    Here items tm s.code s.pc is → (∃ new, tm = new ++ tm1) → Pre e0 loc sc ρ (fun x => ∃ e ∈ es, Free x e) σ false (boundVarsSeq es []).1.length s →
    ∃ s', Steps host s s' ∧ Fin e0 t false sc.length s (instrs is).length vs σ' s'

/-- The simulation for applications. -/
def SimP (host : Host) (P : Prims) (e0 n : Nat) : Prop :=
  ∀ (f : RV) (vs : List RV) (σ : RS) (rs : List RV) (σ' : RS) (s : St), applyR P n f vs σ = .ok (rs, σ') → VR e0 f s.cp → List.Forall₂ (VR e0) vs s.args →
    SRel e0 σ s → ∃ s1 s', s.app = .next s1 ∧ Steps host s1 s' ∧ s'.code[s'.pc]? = some .ret ∧ s'.cont = s.cont ∧ ResRel e0 rs s' ∧ SRel e0 σ' s' ∧
      ∃ new, s'.envs = s.envs ++ new

mutual

theorem hasClauses_noLet : ∀ (e : E), hasClauses e = true → noLet e = true
  | .var _, _ | .lit _, _ | .quote _, _ | .quoteSyntax _, _ | .unbound, _ => rfl
  | .define _ e, h => hasClauses_noLet e (by simpa [hasClauses] using h)
  | .set _ e, h => hasClauses_noLet e (by simpa [hasClauses] using h)
  | .ite c t e, h => by
    simp only [hasClauses, Bool.and_eq_true] at h
    simp only [noLet, Bool.and_eq_true]
    exact ⟨⟨hasClauses_noLet c h.1.1, hasClauses_noLet t h.1.2⟩, hasClauses_noLet e h.2⟩
  | .letv _ _, h => by simp [hasClauses] at h
  | .letrecv _ _, h => by simp [hasClauses] at h
  | .lam _ body, h => hasClausesL_noLet body (by simpa [hasClauses] using h)
  | .clam cs, h => by
    simp only [hasClauses, Bool.and_eq_true] at h
    exact hasClausesC_noLet cs h.2
  | .begin es, h => hasClausesL_noLet es (by simpa [hasClauses] using h)
  | .app f args, h => by
    simp only [hasClauses, Bool.and_eq_true] at h
    simp only [noLet, Bool.and_eq_true]
    exact ⟨hasClauses_noLet f h.1, hasClausesL_noLet args h.2⟩
  | .mvcall e c, h => by
    simp only [hasClauses, Bool.and_eq_true] at h
    simp only [noLet, Bool.and_eq_true]
    exact ⟨hasClauses_noLet e h.1, hasClauses_noLet c h.2⟩
  | .mvlet e _ body, h => by
    simp only [hasClauses, Bool.and_eq_true] at h
    simp only [noLet, Bool.and_eq_true]
    exact ⟨hasClauses_noLet e h.1, hasClauses_noLet body h.2⟩
  | .mvvals es, h => hasClausesL_noLet es (by simpa [hasClauses] using h)

theorem hasClausesL_noLet : ∀ (es : List E), hasClausesL es = true → noLets es = true
  | [], _ => rfl
  | e :: es, h => by
    simp only [hasClausesL, Bool.and_eq_true] at h
    simp only [noLets, Bool.and_eq_true]
    exact ⟨hasClauses_noLet e h.1, hasClausesL_noLet es h.2⟩

theorem hasClausesC_noLet : ∀ (cs : List Cl), hasClausesC cs = true → noLetCls cs = true
  | [], _ => rfl
  | .mk _ body :: cs, h => by
    simp only [hasClausesC, Bool.and_eq_true] at h
    simp only [noLetCls, Bool.and_eq_true]
    exact ⟨hasClausesL_noLet body h.1, hasClausesC_noLet cs h.2⟩

end

/-! ## Steps on results -/

theorem exec_bindValues_one {host : Host} {s : St} {i : Nat} {x : Sym} {xs : List Sym} (h : s.res ≠ .values) (hi : i < s.slots) :
    s.exec host (.bindValues i 1 (x :: xs)) = .next { s.bindAll i [s.res] with res := .void }.adv := by
  rw [St.exec]
  split
  next hv => exact absurd hv h
  · rw [if_pos rfl, if_pos ⟨by simp, hi⟩]; rfl

theorem exec_bindValues_many {host : Host} {s : St} {i n : Nat} {xs : List Sym} (h : s.res = .values) (hv : s.vals.length = n) (hn : n ≤ xs.length)
    (hi : i + n ≤ s.slots) : s.exec host (.bindValues i n xs) = .next { s.bindAll i s.vals with res := .void }.adv := by
  rw [St.exec]
  split
  · rw [if_pos hv, if_pos ⟨hn, hi⟩]
  next h' => exact absurd h h'

theorem exec_tlBind_one {host : Host} {s : St} {e : Nat} {x : Sym} {xs : List Sym} (he : s.tenv = .tenv e) (h : s.res ≠ .values) :
    s.exec host (.tlBindValues 1 (x :: xs)) = .next { s with globs := setGlob s.globs e x s.res, res := .void }.adv := by
  rw [St.exec]
  split
  next e' he' =>
    rw [he] at he'
    cases he'
    split
    next hv => exact absurd hv h
    · rw [if_pos rfl]
  next h' => exact absurd he (h' e)

theorem exec_tlBind_many {host : Host} {s : St} {e n : Nat} {xs : List Sym} (he : s.tenv = .tenv e) (h : s.res = .values) (hv : s.vals.length = n)
    (hn : n ≤ xs.length) : s.exec host (.tlBindValues n xs) = .next { s.bindGlobs e xs s.vals with res := .void }.adv := by
  rw [St.exec]
  split
  next e' he' =>
    rw [he] at he'
    cases he'
    split
    · rw [if_pos hv, if_pos hn]
    next h' => exact absurd h h'
  next h' => exact absurd he (h' e)

theorem exec_withValues {host : Host} {e0 : Nat} {s : St} {vs : List RV} (h : ResRel e0 vs s) :
    ∃ ws, s.exec host .doWithValues = .next { s with args := s.args ++ ws }.adv ∧ List.Forall₂ (VR e0) vs ws := by
  rw [St.exec]
  rcases h with ⟨v, rfl, h⟩ | ⟨_, h2, h3⟩
  · refine ⟨[s.res], ?_, .cons h .nil⟩
    split
    next hv => exact absurd hv h.ne_values
    · rfl
  · refine ⟨s.vals, ?_, h3⟩
    split
    · rfl
    next h' => exact absurd h2 h'

theorem exec_doValues {host : Host} {e0 : Nat} {s : St} {vs : List RV} (h : List.Forall₂ (VR e0) vs s.args) :
    ∃ r u, s.exec host .doValues = .next { s with res := r, vals := u }.adv ∧ ResRel e0 vs { s with res := r, vals := u }.adv := by
  rw [St.exec]
  split
  next v hv =>
    rw [hv] at h
    cases h with
    | cons h1 h2 =>
      cases h2
      exact ⟨v, [], rfl, .inl ⟨_, rfl, h1⟩⟩
  next ws hv =>
    refine ⟨.values, s.args, rfl, .inr ⟨?_, rfl, h⟩⟩
    intro hl
    rw [List.Forall₂.length_eq h] at hl
    match hs : s.args, hl with
    | [v], _ => exact hv v hs

end Minim.Jit

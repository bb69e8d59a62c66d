import Verif.LibOpt
import Verif.LibRunProps

set_option autoImplicit false

/-!
# The compiled library on the machine (C110)

prelude.min and boot.min, and a program after them, are optimised and compiled, form after form, and run on the machine, from the environment the C code makes.
-/

namespace Minim.Fix

open Minim.Sx Minim.Core Minim.Jit Minim.Lib

variable {P : Prims} {host : Host}

/-! ### Lemmas -/

theorem loads_runs : ∀ {es : List E} {σ σ' : RS}, Loads P es σ σ' → ∃ n vss, runs P n es σ = .ok (vss, σ')
  | [], σ, _, .nil _ => ⟨0, [], rfl⟩
  | e :: es, σ, σ', .cons (vs := vs) h1 h2 => by
    obtain ⟨n, h1⟩ := h1
    obtain ⟨m, vss, h2⟩ := loads_runs h2
    refine ⟨n + m, vs :: vss, ?_⟩
    rw [runs, show ev P (n + m) REnv.empty e σ = _ from ev_le (by omega) h1]
    simp only [Res.ok_bind]
    rw [runs_le (m := n + m) (by omega) h2]
    rfl

theorem initial_startV : Initial startV where
  cells := rfl
  globs x v h := by
    simp only [startV] at h
    split at h
    · cases h; exact .clo .cwv
    · simp only [Lib.start] at h
      repeat' split at h
      all_goals first
        | (cases h; done)
        | (simp only [Option.some.injEq] at h; subst h)
      all_goals first
        | exact .clo .values
        | exact .clo .apply
        | exact .clo (.prim _ _)
        | exact .null
        | exact .lit _
        | exact .other _
  values := rfl
  cwv := rfl

theorem startV_pre : startV.pre = Lib.start := by
  show RS.mk [] _ = RS.mk [] _
  congr 1
  funext x
  simp only [startV]
  split
  · rename_i h; subst h; rfl
  · rfl

theorem cut (user : List E) : prelude ++ Lib.boot ++ user = early ++ ([prelude_55] ++ (late ++ user)) := by
  rw [library_cut]
  simp [early, late]

theorem library_user (user : List E) : library ++ user = early ++ (late ++ user) := by simp [library, early, late]

theorem wfL_append {K : Kn} {F : Sym → Prop} : ∀ {es fs : List E}, WfL K F es → WfL K F fs → WfL K F (es ++ fs)
  | [], _, _, h => h
  | e :: es, fs, h, h' => by
    rw [List.cons_append, WfL]
    rw [WfL] at h
    exact ⟨h.1, wfL_append h.2 h'⟩

theorem scL_append {K : Kn} : ∀ {es fs : List E}, SCL K es → SCL K fs → SCL K (es ++ fs)
  | [], _, _, h => h
  | e :: es, fs, h, h' => by
    rw [List.cons_append, SCL]
    rw [SCL] at h
    exact ⟨h.1, scL_append h.2 h'⟩

theorem drop_zip {α β γ : Type} {R : α × β → γ → Prop} : ∀ {xs : List α} {ys : List β} {ws : List γ} (n : Nat), List.Forall₂ R (xs.zip ys) ws → List.Forall₂ R ((xs.drop n).zip (ys.drop n)) (ws.drop n)
  | _, _, _, 0, h => by simpa using h
  | [], _, _, n + 1, h => by simp at h ⊢; subst h; simp
  | _ :: _, [], _, n + 1, h => by simp at h ⊢; subst h; simp
  | x :: xs, y :: ys, ws, n + 1, h => by
    rw [List.zip_cons_cons] at h
    cases h with
    | cons _ t => exact drop_zip n t

/-- The optimised library, and what follows it. -/
theorem optimised {n : Nat} {user es' : List E} (h : optimise n 0 (prelude ++ Lib.boot ++ user) = .ok es') :
    ∃ A L U, es' = A ++ cwvDef S.producer S.consumer :: (L ++ U) ∧ optimise n 0 early = .ok A ∧ optimise n 9 late = .ok L ∧ optimise n 518 user = .ok U ∧
      A.length = 54 ∧ L.length = 237 ∧ (∀ e ∈ A ++ L, okTop e = true) ∧ lacksL .callWithValues A = true := by
  rw [cut] at h
  obtain ⟨e0, A1, a1, a2, _⟩ := fine_iff.1 fine_early
  obtain ⟨l0, L1, l1, l2, _⟩ := fine_iff.1 fine_late
  obtain ⟨A, r, hA, h', rfl⟩ := optimise_append.1 h
  obtain ⟨c, r, hc, h2, rfl⟩ := optimise_append.1 h'
  rw [e0] at hc h2
  rw [show (L0s 9 [prelude_55]).2 = 9 from rfl] at h2
  obtain ⟨L, U, hL, hU, rfl⟩ := optimise_append.1 h2
  rw [l0] at hU
  obtain rfl := optimise_det hA a1
  obtain rfl := optimise_det hL l1
  obtain rfl := optimise_det hc (boot_prelude 0 9 _ _ : optimise 6 9 [prelude_55] = _)
  refine ⟨A, L, U, rfl, hA, hL, hU, (optimise_length hA).trans (by rfl), (optimise_length hL).trans (by rfl), fun e he => ?_, ?_⟩
  · rcases List.mem_append.1 he with he | he
    · exact a2 e he
    · exact l2 e he
  · have := lacks_early
    rw [a1] at this
    exact this

/-! ### The machine -/

/-- The number of forms of the library. -/
abbrev forms : Nat := 292

set_option maxRecDepth 4000 in
example : (prelude ++ Lib.boot).length = forms := by decide +kernel

theorem length_library : library.length = 291 := by decide +kernel

/-- C110 (partial).  prelude.min, boot.min and a program are optimised and compiled form after form.  If loading the library and then the program ends without error in the reference semantics, the machine that runs
the compiled forms one after the other, from the environment the C code makes, ends without error; the forms of the program show the values they have in the reference semantics, those of assignments at top level
excepted; and the top-level variables have the values they have in the reference semantics in the end.

Missing: programs as in `C82_machine_partial`; errors and divergence. -/
theorem C110_load_partial (hP : host.prim = P.f MC) (user es' : List E) (codes : List Code) (n : Nat) (ho : optimise n 0 (prelude ++ Lib.boot ++ user) = .ok es')
    (hw : WfL (stdK fun _ => False) IsGen user) (hs : SCL (stdK fun _ => False) user) (hok : ∀ e ∈ es'.drop forms, okTop e = true) (hc : List.Forall₂ (fun e c => compileExpr e = .ok c) es' codes)
    (s : St) (e0 : Nat) (hst : SRel e0 Lib.start s) (hcont : s.cont = []) (m : Nat) (uss vss : List (List RV)) (σ0 σ : RS) (hl : runs P m library startV = .ok (uss, σ0)) (hu : runs P m user σ0 = .ok (vss, σ)) :
    ∃ ws s1, Session host codes s ws s1 ∧ List.Forall₂ (fun p w => isSet p.1 = true ∨ Shows p.2 w) ((es'.drop forms).zip vss) (ws.drop forms) ∧ (∀ x, ObsG (σ.globs x) (s1.globs e0 x)) ∧
      s1.cont = [] ∧ s1.env = s.env := by
  obtain ⟨A, L, U, rfl, hA, hL, hU, lA, lL, hokL, hlack⟩ := optimised ho
  have hd : (A ++ cwvDef S.producer S.consumer :: (L ++ U)).drop forms = U := by
    rw [show A ++ cwvDef S.producer S.consumer :: (L ++ U) = (A ++ cwvDef S.producer S.consumer :: L) ++ U by simp]
    exact List.drop_left' (by simp [lA, lL])
  rw [hd] at hok ⊢
  have hr : runs P m (early ++ (late ++ user)) startV = .ok (uss ++ vss, σ) := by
    rw [← library_user]
    exact runs_append.2 ⟨uss, σ0, vss, hl, hu, rfl⟩
  have hlu : uss.length = 291 := (runs_length hl).trans length_library
  obtain ⟨l0, _⟩ := fine_iff.1 fine_late
  obtain ⟨x0, _⟩ := fine_iff.1 fine_early
  have hLU : optimise n (L0s 0 early).2 (late ++ user) = .ok (L ++ U) := by
    rw [x0]
    exact optimise_append.2 ⟨L, U, hL, by rw [l0]; exact hU, rfl⟩
  obtain ⟨ws, s1, r1, r2, r3, r4, r5⟩ := C82_file_partial P host hP (fun _ => False) n 0 early (late ++ user) A (L ++ U) codes hA hLU
    (by rw [← library_user]; exact wfL_append (wfL_sound _ wf_library) hw) (by rw [← library_user]; exact scL_append (scL_sound _ sc_library) hs) hlack S.producer S.consumer (by decide) (by decide) (by decide)
    (fun e he => by
      rw [← List.append_assoc] at he
      rcases List.mem_append.1 he with he | he
      · exact hokL e he
      · exact hok e he) hc startV σ initial_startV s e0 (by rw [startV_pre]; exact hst) hcont m (uss ++ vss) hr
  refine ⟨ws, s1, r1, ?_, r3, r4, r5⟩
  have := drop_zip forms r2
  rw [hd] at this
  have hv : ((uss ++ vss).take early.length ++ [.void] :: (uss ++ vss).drop early.length).drop forms = vss := by
    rw [show early.length = 54 by rfl, List.take_append_of_le_length (l₁ := uss) (by omega), List.drop_append_of_le_length (l₁ := uss) (by omega),
      show uss.take 54 ++ [.void] :: (uss.drop 54 ++ vss) = (uss.take 54 ++ [.void] :: uss.drop 54) ++ vss by simp]
    exact List.drop_left' (by simp [hlu])
  rwa [hv] at this

/-- Specification: the call of a variable with data as arguments. -/
def callForm (x : Sym) (ds : List X) : E := .app (.var x) (ds.map .quote)

theorem quotes_L0 (k : Nat) : ∀ ds : List X, L0s k (ds.map .quote) = (ds.map .quote, k)
  | [] => rfl
  | d :: ds => by rw [List.map_cons, L0s, L0]; simp only [quotes_L0 k ds]

theorem quotes_L1 (n : Nat) : ∀ ds : List X, mapR (L1 (n + 1)) (ds.map .quote) = .ok (ds.map .quote)
  | [] => rfl
  | d :: ds => by rw [List.map_cons, mapR, quotes_L1 n ds]; rfl

theorem quotes_L2 : ∀ ds : List X, L2s (ds.map .quote) = .ok (ds.map .quote)
  | [] => rfl
  | d :: ds => by rw [List.map_cons, L2s, quotes_L2 ds]; rfl

theorem optimise_call {x : Sym} (hv : x ≠ .values) (hc : x ≠ .callWithValues) (k : Nat) (ds : List X) : optimise 3 k [callForm x ds] = .ok [callForm x ds] := by
  have h0 : L0s k [callForm x ds] = ([callForm x ds], k) := by
    simp only [callForm, L0s, L0, quotes_L0]
  have h1 : L1 3 (callForm x ds) = .ok (callForm x ds) := by
    unfold callForm
    rw [L1]
    unfold l1Step
    split
    all_goals first
      | (rename_i h; cases h; done)
      | skip
    · rename_i h; cases h; exact absurd rfl hv
    · rename_i h; rw [E.app.injEq] at h; exact absurd (E.var.inj h.1) hc
    · rename_i h
      rw [E.app.injEq] at h
      exact absurd (E.var.inj h.1) hc
    · rename_i h
      cases h
      rw [quotes_L1 1]
      rfl
  have h2 : L2 (callForm x ds) = .ok (callForm x ds) := by
    simp only [callForm, L2, quotes_L2, Res.ok_bind]
  rw [optimise, h0]
  simp only [mapR, h1, Res.ok_bind, L2s, h2]

theorem okL_quotes : ∀ ds : List X, hasClausesL (ds.map .quote) = true ∧ okL true (some []) (ds.map .quote) = true
  | [] => ⟨rfl, rfl⟩
  | d :: ds => by
    obtain ⟨a, b⟩ := okL_quotes ds
    simp [hasClausesL, okL, hasClauses, okE, a, b]

theorem wf_quotes {K : Kn} {F : Sym → Prop} : ∀ ds : List X, WfL K F (ds.map .quote) ∧ SCL K (ds.map .quote)
  | [] => ⟨trivial, trivial⟩
  | d :: ds => by
    obtain ⟨a, b⟩ := wf_quotes (K := K) (F := F) ds
    exact ⟨⟨trivial, a⟩, ⟨trivial, b⟩⟩

theorem ev_quotes {σ : RS} : ∀ ds : List X, EvA P REnv.empty (ds.map .quote) σ (ds.map ofX) σ
  | [] => .nil
  | _ :: ds => .cons .quote (ev_quotes ds)

theorem last_of {α β : Type} {R : α → β → Prop} {a : α} : ∀ {l : List α} {ws : List β}, List.Forall₂ R (l ++ [a]) ws → ∃ ws' w, ws = ws' ++ [w] ∧ R a w
  | [], _, .cons h .nil => ⟨[], _, rfl, h⟩
  | _ :: _, _, .cons _ t => by
    obtain ⟨ws', w, rfl, h⟩ := last_of t
    exact ⟨_ :: ws', w, rfl, h⟩

/-- C110 (partial).  If the library's procedure returns a value for data, after the library and a program have been loaded (as C108 and C109 say for many procedures), then the compiled call, run on the machine
after the compiled library and the compiled program, ends with this value; a datum is the same datum.

Missing: as in `C110_load_partial`. -/
theorem C110_call_partial (hP : host.prim = P.f MC) (user es' : List E) (codes : List Code) (n : Nat) (x : Sym) (ds : List X) (hp : Prot x) (hx : x ≠ .values)
    (ho : optimise n 0 (prelude ++ Lib.boot ++ (user ++ [callForm x ds])) = .ok es') (hw : WfL (stdK fun _ => False) IsGen user) (hs : SCL (stdK fun _ => False) user)
    (hok : ∀ e ∈ (es'.drop forms).dropLast, okTop e = true) (hc : List.Forall₂ (fun e c => compileExpr e = .ok c) es' codes)
    (s : St) (e0 : Nat) (hst : SRel e0 Lib.start s) (hcont : s.cont = []) (σ : RS) (v : RV) (hl : Loads P (library ++ user) startV σ) (hcall : Call P σ x (ds.map ofX) v) :
    ∃ ws w s1, Session host codes s (ws ++ [w]) s1 ∧ Obs v w ∧ ∀ d, v = ofX d → w = ofX d := by
  have hcw : x ≠ .callWithValues := by rintro rfl; exact hp
  have hg : ¬ IsGen x := by
    rintro ⟨j, rfl⟩
    exact hp
  obtain ⟨A, L, U, rfl, hA, hL, hU, lA, lL, -⟩ := optimised ho
  have hd : (A ++ cwvDef S.producer S.consumer :: (L ++ U)).drop forms = U := by
    rw [show A ++ cwvDef S.producer S.consumer :: (L ++ U) = (A ++ cwvDef S.producer S.consumer :: L) ++ U by simp]
    exact List.drop_left' (by simp [lA, lL])
  rw [hd] at hok
  obtain ⟨U, c, hU1, hc1, rfl⟩ := optimise_append.1 hU
  obtain rfl := optimise_det hc1 (optimise_call hx hcw _ ds)
  rw [List.dropLast_concat] at hok
  obtain ⟨f, σ', hf, he, -⟩ := hcall
  have hev : Evs P REnv.empty (callForm x ds) σ [v] σ' := by
    refine .app (.var ?_) (ev_quotes ds) he
    obtain ⟨k, he⟩ := he
    show (match σ.globs x with | none => _ | some .unbound => _ | some v => _) = _
    rw [hf]
    cases f with
    | unbound => cases k <;> simp [applyR] at he
    | _ => rfl
  have hl2 : ∃ m uss σ0 vss, runs P m library startV = .ok (uss, σ0) ∧ runs P m (user ++ [callForm x ds]) σ0 = .ok (vss ++ [[v]], σ') := by
    obtain ⟨k1, vs1, h1⟩ := loads_runs hl
    obtain ⟨uss, σ0, vss, h1, h2, -⟩ := runs_append.1 h1
    obtain ⟨k2, h3⟩ := hev
    refine ⟨k1 + k2, uss, σ0, vss, runs_le (by omega) h1, runs_append.2 ⟨vss, σ, [[v]], runs_le (by omega) h2, ?_, rfl⟩⟩
    rw [runs, show ev P (k1 + k2) REnv.empty (callForm x ds) σ = _ from ev_le (by omega) h3]
    rfl
  obtain ⟨m, uss, σ0, vss, r1, r2⟩ := hl2
  obtain ⟨ws, s1, q1, q2, -⟩ := C110_load_partial hP (user ++ [callForm x ds]) _ codes n ho
    (wfL_append hw ⟨⟨hg, (wf_quotes ds).1⟩, trivial⟩) (scL_append hs ⟨⟨(wf_quotes (F := IsGen) ds).2, .inl hcw⟩, trivial⟩)
    (fun e he => by
      rw [hd] at he
      rcases List.mem_append.1 he with he | he
      · exact hok e he
      · rw [List.mem_singleton.1 he]
        obtain ⟨a, b⟩ := okL_quotes ds
        simp [okTop, callForm, hasClauses, okE, a, b]) hc s e0 hst hcont m uss _ σ0 σ' r1 r2
  rw [hd, List.zip_append (by
    have h1 := runs_length r2
    have h2 := optimise_length hU1
    simp at h1
    omega)] at q2
  obtain ⟨ws', w, h1, h2⟩ := last_of q2
  refine ⟨ws.take forms ++ ws', w, s1, ?_, ?_⟩
  · rwa [List.append_assoc, ← h1, List.take_append_drop]
  · rcases h2 with h2 | ⟨u, hu, h2⟩ | ⟨h2, _⟩
    · cases h2
    · cases hu
      exact ⟨h2, fun d hd => by subst hd; exact VRel.ofX_eq d h2⟩
    · exact absurd rfl h2

/-! ### Example -/

/-- A value of the environment the C code makes, in the machine. -/
def inMachine : RV → MV
  | .clo (.prim p k) => .clo ⟨primCode k p, [], 0⟩
  | .clo .values => .clo ⟨valuesCode, [], 0⟩
  | .clo .apply => .clo ⟨applyCode, [], 0⟩
  | .null => .null
  | .lit l => .lit l
  | .other n => .other n
  | _ => .undef

/-- The machine before the library is loaded. -/
def machine : St := Jit.start (.mk [] (.pair 0 .fls)) (fun x => (Lib.start.globs x).map inMachine)

theorem machine_rel : SRel 0 Lib.start machine := by
  refine ⟨rfl, .nil, fun x => ?_⟩
  show GRel 0 (Lib.start.globs x) ((Lib.start.globs x).map inMachine)
  simp only [Lib.start]
  repeat' split
  all_goals first
    | trivial
    | exact .clo (.prim rfl)
    | exact .clo (.values rfl)
    | exact .clo (.apply rfl)
    | exact .null
    | exact .lit _
    | exact .other _

theorem compile_all : ∀ {es : List E}, (∀ e ∈ es, compiles e = true) → ∃ codes, List.Forall₂ (fun e c => compileExpr e = .ok c) es codes
  | [], _ => ⟨[], .nil⟩
  | e :: es, h => by
    obtain ⟨codes, hc⟩ := compile_all (es := es) (fun e he => h e (.tail _ he))
    have := h e (.head _)
    unfold compiles at this
    split at this
    · rename_i c hc1
      exact ⟨c :: codes, .cons hc1 hc⟩
    · cases this

/-- The whole library is optimised and compiled, and so is a call after it. -/
theorem compiled (x : Sym) (hv : x ≠ .values) (hc : x ≠ .callWithValues) (ds : List X) (h : compiles (callForm x ds) = true) :
    ∃ es' codes, optimise 200 0 (prelude ++ Lib.boot ++ ([] ++ [callForm x ds])) = .ok es' ∧ List.Forall₂ (fun e c => compileExpr e = .ok c) es' codes := by
  obtain ⟨e0, A, a1, _, a3⟩ := fine_iff.1 fine_early
  obtain ⟨l0, L, l1, _, l3⟩ := fine_iff.1 fine_late
  have hcwv : compiles (cwvDef S.producer S.consumer) = true := by decide +kernel
  have hcall : optimise 200 518 [callForm x ds] = .ok [callForm x ds] := optimise_ext (by omega) _ _ (optimise_call hv hc 518 ds)
  have ho : optimise 200 0 (prelude ++ Lib.boot ++ ([] ++ [callForm x ds])) = .ok (A ++ ([cwvDef S.producer S.consumer] ++ (L ++ [callForm x ds]))) := by
    rw [cut]
    refine optimise_append.2 ⟨A, _, a1, optimise_append.2 ⟨_, _, by rw [e0]; exact boot_prelude 194 9 _ _, optimise_append.2 ⟨L, _, ?_, ?_, rfl⟩, rfl⟩, rfl⟩
    · rw [e0]; exact l1
    · rw [e0, show (L0s 9 [prelude_55]).2 = 9 from rfl, l0]; exact hcall
  obtain ⟨codes, hcodes⟩ := compile_all (es := A ++ ([cwvDef S.producer S.consumer] ++ (L ++ [callForm x ds]))) (fun e he => by
    simp only [List.mem_append, List.mem_singleton] at he
    rcases he with he | rfl | he | rfl
    · exact a3 e he
    · exact hcwv
    · exact l3 e he
    · exact h)
  exact ⟨_, codes, ho, hcodes⟩

/-- The hypotheses can be met: with a small set of C functions the compiled library is loaded on the machine, and then the compiled `(append '(a b) '(c))` ends with `(a b c)`. -/
example : ∃ codes ws s1, Session ⟨lawP.f MC, fun _ => .err⟩ codes machine (ws ++ [ofX (.cons (.sym (.user 1)) (.cons (.sym (.user 2)) (.cons (.sym (.user 3)) .null)))]) s1 := by
  obtain ⟨σ, hl⟩ := loads_some lawP 42 _ startV lawP_loads
  have B : Booted lawP lawN [] σ := ⟨.inr (by simpa using hl), by simp, lawP_laws⟩
  obtain ⟨es', codes, ho, hc⟩ := compiled S.append (by decide) (by decide) [.cons (.sym (.user 1)) (.cons (.sym (.user 2)) .null), .cons (.sym (.user 3)) .null] (by decide +kernel)
  have hcall : Call lawP σ S.append ([X.cons (.sym (.user 1)) (.cons (.sym (.user 2)) .null), .cons (.sym (.user 3)) .null].map ofX) _ := (C108_lists B).2.2.2.1 [[.sym (.user 1), .sym (.user 2)], [.sym (.user 3)]]
  obtain ⟨A, L, U, rfl, hA, hL, hU, lA, lL, -⟩ := optimised ho
  have hd : (A ++ cwvDef S.producer S.consumer :: (L ++ U)).drop forms = U := by
    rw [show A ++ cwvDef S.producer S.consumer :: (L ++ U) = (A ++ cwvDef S.producer S.consumer :: L) ++ U by simp]
    exact List.drop_left' (by simp [lA, lL])
  obtain rfl := optimise_det hU (optimise_call (by decide) (by decide) 518 _)
  obtain ⟨ws, w, s1, h1, _, h2⟩ := C110_call_partial (host := ⟨lawP.f MC, fun _ => .err⟩) rfl [] _ codes 200 S.append _ (by decide) (by decide) ho trivial trivial (by rw [hd]; simp) hc machine 0 machine_rel rfl σ _ (by simpa using hl) hcall
  rw [h2 (.cons (.sym (.user 1)) (.cons (.sym (.user 2)) (.cons (.sym (.user 3)) .null))) rfl] at h1
  exact ⟨codes, ws, s1, h1⟩

end Minim.Fix

import Verif.Spec.Needs
import Verif.Props.Ctor
import Verif.Lemmas.CtorTyped

/-!
# When constructors succeed (C65), fail and crash (C66)
-/

namespace Stix
open Spec StixObject

/-! ### Values after the options -/

theorem ends_val {env : Env} {c : Ctor} {opts : List (Option Opt)} (hl : AllLibrary opts)
    (hok : (applyOptions (c.base env) opts).2 = .ok ()) {n p : Str} (hp : p ≠ b!"extensions")
    (hf : hasField c.kind n p = true) {z : GV}
    (hb : (c.base env).val n = (amLookup p (promise c).args).getD z) :
    (applyOptions (c.base env) opts).1.val n = (endsAs c opts p).getD z := by
  have h := options_lastSet (c.base env) opts hl p hp hok
  have hs : (applyOptions (c.base env) opts).1.sid = c.kind := by
    rw [(options_id_type hl (Prod.ext rfl hok : applyOptions (c.base env) opts = (_, .ok ()))).1, base_sid]
  rw [prop_of (n := n) (by rw [hs]; exact hf), base_sid, prop_of (n := n) (by rw [base_sid]; exact hf)] at h
  rw [endsAs, promise_kind]
  cases hls : lastSet c.kind p opts with
  | some v => rw [hls] at h; exact Option.some.inj h
  | none => rw [hls] at h; rw [Option.some.inj h]; exact hb

theorem gets_text {c : Ctor} {opts : List (Option Opt)} {n p : Str} {o : Obj}
    (h : o.val n = (endsAs c opts p).getD (.str [])) : GetsText c opts p ↔ o.getStr n ≠ [] := by
  simp only [GetsText, Obj.getStr, h]
  cases endsAs c opts p with
  | none => simp
  | some v => cases v <;> simp

theorem gets_bytes {c : Ctor} {opts : List (Option Opt)} {n p : Str} {o : Obj}
    (h : o.val n = (endsAs c opts p).getD (.bin none)) :
    GetsBytes c opts p ↔ (o.getBin n).isSome = true := by
  simp only [GetsBytes, Obj.getBin, h]
  cases endsAs c opts p with
  | none => simp
  | some v => cases v <;> simp [Option.isSome_iff_exists]

theorem gets_map {c : Ctor} {opts : List (Option Opt)} {n p : Str} {o : Obj}
    (h : o.val n = (endsAs c opts p).getD (.map none)) :
    GetsMap c opts p ↔ (o.getHashes n).isSome = true := by
  simp only [GetsMap, Obj.getHashes, h]
  cases endsAs c opts p with
  | none => simp
  | some v => cases v with
    | map m => cases m <;> simp
    | _ => simp

theorem gets_time {c : Ctor} {opts : List (Option Opt)} {n p : Str} {o : Obj}
    (h : o.val n = (endsAs c opts p).getD (.ptr none)) (t : GoTime) :
    GetsTime c opts p t ↔ o.getTime n = some t := by
  simp only [GetsTime, Obj.getTime, h]
  cases endsAs c opts p with
  | none => simp
  | some v =>
    simp only [Option.some.injEq, Option.getD_some]
    split
    · simp
    · rename_i hne
      simp only [reduceCtorEq, iff_false]
      exact fun e => hne t e

theorem inOrder_iff {c : Ctor} {opts : List (Option Opt)} {o : Obj}
    (h1 : o.val (b!"FirstSeen") = (endsAs c opts (b!"first_seen")).getD (.ptr none))
    (h2 : o.val (b!"LastSeen") = (endsAs c opts (b!"last_seen")).getD (.ptr none)) :
    InOrder c opts ↔ seenWrong o = false := by
  simp only [InOrder, gets_time h1, gets_time h2, seenWrong]
  cases o.getTime (b!"FirstSeen") <;> cases o.getTime (b!"LastSeen") <;> simp

theorem filled_iff {α : Type} (l : Option (List α)) : Filled l ↔ ¬ l.getD [] = [] := by
  rcases l with _ | _ | ⟨a, l⟩ <;> simp [Filled]

/-! ### When a run succeeds -/

theorem run_ok_iff (env : Env) (c : Ctor) (opts : List (Option Opt)) :
    (∃ o, c.run env opts = .ret (some o) none) ↔ c.pre opts.length = none ∧
      (applyOptions (c.base env) opts).2 = .ok () ∧
      c.check (applyOptions (c.base env) opts).1 none = none ∧
      ∀ r, c.text env (applyOptions (c.base env) opts).1 = some r → ∃ t, r = .ok t := by
  constructor
  · rintro ⟨o, h⟩
    obtain ⟨h1, o', h2, h3, h4⟩ := run_ok h
    rw [h2]
    refine ⟨h1, rfl, h3, ?_⟩
    intro r hr
    simp only at hr
    rcases h4 with ⟨h4, -⟩ | ⟨t, h4, -⟩ <;> rw [h4] at hr <;> cases hr
    exact ⟨t, rfl⟩
  · rintro ⟨h1, h2, h3, h4⟩
    rw [run_eq, h1]
    simp only [withOptions]
    rcases ha : applyOptions (c.base env) opts with ⟨o', r⟩
    rw [ha] at h2 h3 h4
    simp only at h2 h3 h4
    subst h2
    simp only [Ctor.post, h3]
    cases ht : c.text env o' with
    | none => exact ⟨o', rfl⟩
    | some r =>
      obtain ⟨t, rfl⟩ := h4 r ht
      exact ⟨_, rfl⟩

theorem regValues_ok {n : Str} {fs : Fields} : ∀ {l : List GV},
    (∀ v ∈ l, Val typed (.ptr (.struct n fs)) v) →
    ((∃ t, regValuesContrib l = .ok t) ↔ GV.ptr none ∉ l)
  | [], _ => by simp [regValuesContrib]
  | v :: l, h => by
    have ih := regValues_ok (l := l) fun v hv => h v (.tail _ hv)
    rcases h v (.head _) with rfl | ⟨w, rfl, hw⟩
    · simp [regValuesContrib, regValueContrib, bind, Res.bind]
    · simp only [Val] at hw
      obtain ⟨f, rfl, -⟩ := hw
      simp only [List.mem_cons, GV.ptr.injEq, reduceCtorEq, false_or, ← ih]
      simp only [regValuesContrib, regValueContrib, bind, Res.bind]
      cases regValuesContrib l <;> simp [pure]

theorem registry_ok {o : Obj} {n : Str} {fs : Fields}
    (h : Val typed (.slice (.ptr (.struct n fs))) (o.val (b!"Values"))) :
    (∃ t, registryContrib o = .ok t) ↔
      ∀ l, o.val (b!"Values") = .slice (some l) → GV.ptr none ∉ l := by
  simp only [registryContrib]
  rcases h with h | ⟨l, h, hl⟩
  · simp [h, regValuesContrib, bind, Res.bind, pure]
  · rw [h]
    have := regValues_ok hl
    simp only [GV.slice.injEq, Option.some.injEq, forall_eq', ← this]
    cases regValuesContrib l <;> simp [bind, Res.bind, pure]

theorem notNaN_of_finite {x : F64} (h : F64Finite x) : ¬ F64NaN x := fun hn => h hn.1

theorem location_args {r co : Str} {lat long : F64} (h : ValArgs typed (.location r co lat long)) :
    F64Finite lat ∧ F64Finite long := by
  have h' := valArgs_keyTy h
  simp only [promise, List.mem_cons, List.not_mem_nil, or_false, forall_eq_or_imp, forall_eq] at h'
  obtain ⟨-, -, h1, h2⟩ := h'
  obtain ⟨f, e1, e2⟩ := h1 _ rfl
  obtain ⟨g, e3, e4⟩ := h2 _ rfl
  cases e1; cases e3
  exact ⟨e2, e4⟩

theorem magUnits_strict {m n : Nat} (h : m < n) : magUnits m < magUnits n := by
  unfold magUnits
  by_cases he : m / 2 ^ 52 = n / 2 ^ 52
  · have hf : m % 2 ^ 52 < n % 2 ^ 52 := by omega
    rw [he]
    split
    · exact hf
    · exact Nat.mul_lt_mul_of_pos_right (by omega) (Nat.two_pow_pos _)
  · have hlt : m / 2 ^ 52 < n / 2 ^ 52 := by omega
    rw [if_neg (by omega : ¬ n / 2 ^ 52 = 0)]
    split
    · have : 1 ≤ 2 ^ (n / 2 ^ 52 - 1) := Nat.one_le_two_pow
      calc m % 2 ^ 52 < 2 ^ 52 * 1 := by omega
        _ ≤ _ := Nat.mul_le_mul (by omega) this
    · have h1 : 2 ^ (n / 2 ^ 52 - 1) ≥ 2 ^ (m / 2 ^ 52 - 1) * 2 := by
        rw [← Nat.pow_succ]
        exact Nat.pow_le_pow_right (by omega) (by omega)
      calc (2 ^ 52 + m % 2 ^ 52) * 2 ^ (m / 2 ^ 52 - 1)
          < (2 ^ 52 * 2) * 2 ^ (m / 2 ^ 52 - 1) :=
            Nat.mul_lt_mul_of_pos_right (by omega) (Nat.two_pow_pos _)
        _ = 2 ^ 52 * (2 ^ (m / 2 ^ 52 - 1) * 2) := by rw [Nat.mul_assoc, Nat.mul_comm 2]
        _ ≤ (2 ^ 52 + n % 2 ^ 52) * 2 ^ (n / 2 ^ 52 - 1) := Nat.mul_le_mul (by omega) h1

theorem f64Val_strict {a b : F64} (h : fkey a < fkey b) : f64Val a < f64Val b := by
  rw [f64Val_eq, f64Val_eq]
  have : sunits a < sunits b := by
    rw [fkey_eq, fkey_eq] at h
    unfold sunits
    rw [units_mag, units_mag]
    cases ha : f64Neg a <;> cases hb : f64Neg b <;>
      simp only [ha, hb, if_true, if_false, Bool.false_eq_true] at h ⊢
    · exact_mod_cast magUnits_strict (by exact_mod_cast h)
    · omega
    · rcases Nat.eq_zero_or_pos (mag a) with h0 | h0
      · have := magUnits_strict (m := 0) (n := mag b) (by omega)
        omega
      · have := magUnits_strict (m := 0) (n := mag a) h0
        omega
    · have := magUnits_strict (m := mag b) (n := mag a) (by omega)
      omega
  have h' : (sunits a : ℚ) < sunits b := by exact_mod_cast this
  exact div_lt_div_of_pos_right h' (by positivity)

theorem fltLt_iff {a b : F64} (ha : ¬ F64NaN a) (hb : ¬ F64NaN b) :
    fltLt a b = true ↔ ¬ f64Val b ≤ f64Val a := by
  constructor
  · intro h
    simp only [fltLt, Bool.and_eq_true, decide_eq_true_eq] at h
    exact not_le.2 (f64Val_strict h.2)
  · intro h
    by_contra hc
    exact h (not_fltLt ha hb (by simpa using hc))

theorem ite_none {P : Prop} [Decidable P] {e : Err} {x : Option Err} :
    (if P then some e else x) = none ↔ ¬ P ∧ x = none := by
  split <;> simp [*]

/-- The tests of coordinates, by value. -/
theorem location_pre {r co : Str} {lat long : F64} (h1 : ¬ F64NaN lat) (h2 : ¬ F64NaN long) (n : Nat) :
    (Ctor.location r co lat long).pre n = none ↔
      (r ≠ [] ∨ co ≠ [] ∨ f64Val lat ≠ 0) ∧ (f64Val lat = 0 ↔ f64Val long = 0) ∧
      (-90 ≤ f64Val lat ∧ f64Val lat ≤ 90) ∧ (-180 ≤ f64Val long ∧ f64Val long ≤ 180) := by
  obtain ⟨v1, v2, v3, v4⟩ := val_90
  have e1 := fltEq_zero h1
  have e2 := fltEq_zero h2
  have k1 := fltLt_iff h1 (b := fltNeg90) (by decide)
  have k2 := fltLt_iff (a := flt90) (by decide) h1
  have k3 := fltLt_iff h2 (b := fltNeg180) (by decide)
  have k4 := fltLt_iff (a := flt180) (by decide) h2
  rw [v2] at k1
  rw [v1] at k2
  rw [v4] at k3
  rw [v3] at k4
  simp only [Ctor.pre, ite_none, Bool.or_eq_true, Bool.and_eq_true, Bool.not_eq_true',
    ← Bool.not_eq_true, k1, k2, k3, k4, e1, e2, ne_eq, and_true]
  clear k1 k2 k3 k4 e1 e2 v1 v2 v3 v4 h1 h2
  generalize (-90 ≤ f64Val lat) = A
  generalize (f64Val lat ≤ 90) = B
  generalize (-180 ≤ f64Val long) = C
  generalize (f64Val long ≤ 180) = D
  generalize (f64Val lat = 0) = E
  generalize (f64Val long = 0) = G
  generalize (r = []) = H
  generalize (co = []) = I
  tauto

/-- **C65.** A constructor returns an object without error exactly when all options are for properties
the object has and its needs are met. -/
theorem c65_succeeds (env : Env) (c : Ctor) (opts : List (Option Opt)) (hl : AllLibrary opts)
    (ha : ValArgs typed c) (hv : ValOpts typed opts) :
    (∃ o, c.run env opts = .ret (some o) none) ↔
      (∀ opt, some opt ∈ opts → (target (promise c).kind opt).isSome) ∧ Needs opts c := by
  rw [run_ok_iff, options_ok_iff _ _ hl, base_sid, promise_kind]
  by_cases hopt : ∀ opt, some opt ∈ opts → (target c.kind opt).isSome = true
  swap
  · constructor
    · exact fun h => absurd h.2.1 hopt
    · exact fun h => absurd h.1 hopt
  rw [iff_true_intro hopt, true_and, true_and]
  have hok : (applyOptions (c.base env) opts).2 = .ok () := by
    rw [options_ok_iff _ _ hl, base_sid]; exact hopt
  have hend := fun n p (h0 : p ≠ b!"extensions") (hf : hasField c.kind n p = true) z hb =>
    ends_val (env := env) hl hok (n := n) (p := p) h0 hf (z := z) hb
  have hval : ValObj typed (applyOptions (c.base env) opts).1 := options_val opts
    (base_val typed_zeroOk ⟨trivial, trivial, trivial, trivial⟩ ha) hl hv
  have hsid : (applyOptions (c.base env) opts).1.sid = c.kind := by
    rw [(options_id_type hl (Prod.ext rfl hok : applyOptions (c.base env) opts = (_, .ok ()))).1, base_sid]
  generalize (applyOptions (c.base env) opts).1 = o at *
  cases c
  case campaign n =>
    have h1 := inOrder_iff (hend (b!"FirstSeen") (b!"first_seen") (by decide) (by simp only [Ctor.kind]; decide +kernel) (.ptr none) rfl)
      (hend (b!"LastSeen") (b!"last_seen") (by decide) (by simp only [Ctor.kind]; decide +kernel) (.ptr none) rfl)
    simp only [Needs, h1, Ctor.pre, Ctor.check, Ctor.text]
    simp
  case location r co lat long =>
    obtain ⟨f1, f2⟩ := location_args ha
    have g1 := notNaN_of_finite f1
    have g2 := notNaN_of_finite f2
    have h1 := hend (b!"Precision") (b!"precision") (by decide) (by simp only [Ctor.kind]; decide +kernel) (.flt 0) rfl
    have h2 : F64Finite (o.getFlt (b!"Precision")) := by
      have : (⟨b!"Precision", b!"precision", true, .flt⟩ : FieldInfo) ∈ objFields o.sid := by
        rw [hsid]; simp [Ctor.kind, objFields, ownFields, fieldsLocation, mkFields, Fields.toList]
      obtain ⟨f, e, hf⟩ := hval _ this
      simp only [Obj.getFlt]
      rw [show o.val (b!"Precision") = .flt f from e]
      exact hf
    have h3 : (∀ p, endsAs (.location r co lat long) opts (b!"precision") = some (.flt p) →
        f64Val p ≠ 0 → f64Val lat ≠ 0) ↔
        (f64Val (o.getFlt (b!"Precision")) ≠ 0 → f64Val lat ≠ 0) := by
      have hz : f64Val 0 = 0 := by simp [f64Val, f64Units, f64Exp, f64Frac]
      simp only [Obj.getFlt, h1]
      cases endsAs (.location r co lat long) opts (b!"precision") with
      | none => simp [hz]
      | some v => cases v <;> simp [hz]
    rw [location_pre g1 g2]
    simp only [Needs, Ctor.check, Ctor.text, h3]
    have h4 := fltEq_zero (notNaN_of_finite h2)
    have h5 := fltEq_zero g1
    have h6 := fltEq_zero g2
    simp only [ne_eq, ← h4, ← h5, ← h6]
    cases fltEq (o.getFlt (b!"Precision")) 0 <;> cases fltEq lat 0 <;> cases fltEq long 0 <;>
      simp
  case malware f =>
    have h1 := gets_text (hend (b!"Name") (b!"name") (by decide) (by simp only [Ctor.kind]; decide +kernel) (.str []) rfl)
    simp only [Needs, h1, Ctor.pre, Ctor.check, Ctor.text]
    simp
  case sighting s =>
    have h1 := inOrder_iff (hend (b!"FirstSeen") (b!"first_seen") (by decide) (by simp only [Ctor.kind]; decide +kernel) (.ptr none) rfl)
      (hend (b!"LastSeen") (b!"last_seen") (by decide) (by simp only [Ctor.kind]; decide +kernel) (.ptr none) rfl)
    have h2 := hend (b!"Count") (b!"count") (by decide) (by simp only [Ctor.kind]; decide +kernel) (.int 0) rfl
    have h3 : (∀ n, endsAs (.sighting s) opts (b!"count") = some (.int n) → 0 ≤ n ∧ n ≤ 999999999) ↔
        ¬ (o.getInt (b!"Count") < 0 ∨ o.getInt (b!"Count") > 999999999) := by
      simp only [Obj.getInt, h2]
      cases endsAs (.sighting s) opts (b!"count") with
      | none => simp
      | some v => cases v <;> simp
    simp only [Needs, h1, h3, Ctor.pre, Ctor.check, Ctor.text]
    by_cases hc : o.getInt (b!"Count") < 0 ∨ o.getInt (b!"Count") > 999999999
    · simp [hc]
    · simp [hc]
  case artifact =>
    have h1 := gets_bytes (hend (b!"Payload") (b!"payload_bin") (by decide) (by simp only [Ctor.kind]; decide +kernel) (.bin none) rfl)
    have h2 := gets_text (hend (b!"URL") (b!"url") (by decide) (by simp only [Ctor.kind]; decide +kernel) (.str []) rfl)
    have h3 := gets_map (hend (b!"Hashes") (b!"hashes") (by decide) (by simp only [Ctor.kind]; decide +kernel) (.map none) rfl)
    simp only [Needs, h1, h2, h3, Ctor.pre, Ctor.check, Ctor.text]
    by_cases u : o.getStr (b!"URL") = [] <;> cases o.getBin (b!"Payload") <;>
      cases o.getHashes (b!"Hashes") <;> simp [u]
  case networkTraffic p =>
    have h1 := gets_text (hend (b!"Src") (b!"src_ref") (by decide) (by simp only [Ctor.kind]; decide +kernel) (.str []) rfl)
    have h2 := gets_text (hend (b!"Dst") (b!"dst_ref") (by decide) (by simp only [Ctor.kind]; decide +kernel) (.str []) rfl)
    simp only [Needs, h1, h2, filled_iff, Ctor.pre, Ctor.check, Ctor.text]
    by_cases u : o.getStr (b!"Src") = [] <;> by_cases w : o.getStr (b!"Dst") = [] <;> simp [u, w]
  case registryKey =>
    have h1 := hend (b!"Values") (b!"values") (by decide) (by simp only [Ctor.kind]; decide +kernel) (.slice none) rfl
    have h2 : Val typed (.slice (.ptr (.struct (b!"RegistryValue") fieldsRegistryValue)))
        (o.val (b!"Values")) := by
      have : (⟨b!"Values", b!"values", true,
          .slice (.ptr (.struct (b!"RegistryValue") fieldsRegistryValue))⟩ : FieldInfo) ∈
          objFields o.sid := by
        rw [hsid]; simp [Ctor.kind, objFields, ownFields, fieldsRegistryKey, mkFields, Fields.toList]
      exact hval _ this
    have h3 := registry_ok h2
    have h4 : (∀ l, endsAs .registryKey opts (b!"values") = some (.slice (some l)) → GV.ptr none ∉ l) ↔
        ∀ l, o.val (b!"Values") = .slice (some l) → GV.ptr none ∉ l := by
      rw [h1]
      cases endsAs .registryKey opts (b!"values") <;> simp
    simp only [Needs, Ctor.pre, Ctor.check, Ctor.text, h4, ← h3]
    simp
  all_goals
    simp only [Needs, filled_iff, Ctor.pre, Ctor.check, Ctor.text]
    simp
  case malwareAnalysis p r s => tauto
  case markingDefinition t d => cases d <;> simp [Dyn.isNil]
  case file n h => tauto

/-! ### Errors and panics -/

theorem options_stop (s : SId) : ∀ (opts : List (Option Opt)) (o : Obj), o.sid = s → AllLibrary opts →
    (∀ opt, some opt ∈ beforeObstacle s opts → (target s opt).isSome = true) ∧
    (∀ x ∈ beforeObstacle s opts, x ∈ opts) ∧
    (obstacle s opts = none → beforeObstacle s opts = opts) ∧
    ∀ opt, obstacle s opts = some opt → some opt ∈ opts ∧ target s opt = none ∧
      (applyOptions o opts).1 = (applyOptions o (beforeObstacle s opts)).1 ∧
      (applyOptions o opts).2 = (opt.apply (applyOptions o (beforeObstacle s opts)).1).2
  | [], o, _, _ => by simp [beforeObstacle, obstacle]
  | none :: opts, o, hs, hl => by
    obtain ⟨h1, h2, h3, h4⟩ := options_stop s opts o hs fun x hx => hl x (.tail _ hx)
    have e1 : beforeObstacle s (none :: opts) = none :: beforeObstacle s opts := rfl
    have e2 : obstacle s (none :: opts) = obstacle s opts := rfl
    rw [e1, e2]
    refine ⟨?_, ?_, fun h => by rw [h3 h], fun opt h => ?_⟩
    · intro opt ho; exact h1 opt (by simpa using ho)
    · intro x hx
      rcases List.mem_cons.1 hx with rfl | hx
      · exact .head _
      · exact .tail _ (h2 x hx)
    · obtain ⟨a, b, c, d⟩ := h4 opt h
      exact ⟨.tail _ a, b, c, d⟩
  | some opt :: opts, o, hs, hl => by
    have hf := c16_option_frame opt (hl opt (.head _)) o
    cases ht : target s opt with
    | none =>
      have e1 : beforeObstacle s (some opt :: opts) = [] := by simp [beforeObstacle, ht]
      have e2 : obstacle s (some opt :: opts) = some opt := by simp [obstacle, ht]
      have hok : (opt.apply o).2 ≠ .ok () := fun h => by
        have := hf.2.1.1 h
        rw [hs, ht] at this
        cases this
      rw [e1, e2]
      refine ⟨by simp, by simp, by simp, ?_⟩
      intro opt' h
      cases h
      rw [applyOptions_cons_fail hok, hf.1 hok]
      exact ⟨.head _, ht, rfl, rfl⟩
    | some q =>
      have e1 : beforeObstacle s (some opt :: opts) = some opt :: beforeObstacle s opts := by
        simp [beforeObstacle, ht]
      have e2 : obstacle s (some opt :: opts) = obstacle s opts := by simp [obstacle, ht]
      have hok : (opt.apply o).2 = .ok () := hf.2.1.2 (by rw [hs, ht]; rfl)
      have hs' : (opt.apply o).1.sid = s := by
        rw [(hf.2.2 q (by rw [hs, ht])).2.2.1, hs]
      obtain ⟨h1, h2, h3, h4⟩ := options_stop s opts _ hs' fun x hx => hl x (.tail _ hx)
      rw [e1, e2]
      refine ⟨?_, ?_, fun h => by rw [h3 h], fun opt' h => ?_⟩
      · intro opt' ho
        rcases List.mem_cons.1 ho with ho | ho
        · cases ho; rw [ht]; rfl
        · exact h1 opt' ho
      · intro x hx
        rcases List.mem_cons.1 hx with rfl | hx
        · exact .head _
        · exact .tail _ (h2 x hx)
      · obtain ⟨a, b, c, d⟩ := h4 opt' h
        rw [applyOptions_cons_ok hok, applyOptions_cons_ok hok]
        exact ⟨.tail _ a, b, c, d⟩

/-- An option that is for no property gives an error, or panics if it is the content option and the
object a note. -/
theorem obstacle_apply (opt : Opt) (hl : Library opt) (o : Obj) (ht : target o.sid opt = none) :
    ((opt.apply o).2 = .panic ∧ (∃ v, opt = .field OptionContent v) ∧ o.sid = .Note) ∨
    ((opt.apply o).2 = .err .other ∧ ¬ ((∃ v, opt = .field OptionContent v) ∧ o.sid = .Note)) := by
  by_cases h : (∃ v, opt = .field OptionContent v) ∧ o.sid = .Note
  · obtain ⟨v, rfl⟩ := h.1
    exact .inl ⟨(c18_content_on_note_panics o h.2 v).2, ⟨v, rfl⟩, h.2⟩
  · refine .inr ⟨?_, h⟩
    have hf := c16_option_frame opt hl o
    cases hr : (opt.apply o).2 with
    | ok u =>
      have := hf.2.1.1 hr
      rw [ht] at this
      cases this
    | panic => exact absurd (c18_options_no_panic_partial opt hl o hr) h
    | err e =>
      have := options_err o [some opt] (by
        intro x hx
        obtain rfl : x = opt := by simpa using hx
        exact hl) e (by
        rw [applyOptions_cons_fail (by rw [hr]; simp)]; exact hr)
      rw [this]

theorem check_lax {c : Ctor} (h : ¬ Strict c) (o : Obj) (e : Option Err) : c.check o e = c.check o none := by
  cases c <;> first | rfl | exact absurd trivial h

theorem pre_length {c : Ctor} {n m : Nat} (hn : n ≠ 0) (hm : m ≠ 0) : c.pre n = c.pre m := by
  cases c <;> first | rfl | simp [Ctor.pre, hn, hm]

/-- The result of a run whose options meet an obstacle. -/
theorem run_obstacle {env : Env} {c : Ctor} {opts : List (Option Opt)} (hl : AllLibrary opts) {opt : Opt}
    (hopt : obstacle c.kind opts = some opt) (hp : c.pre opts.length = none) :
    let o' := (applyOptions (c.base env) (none :: beforeObstacle c.kind opts)).1
    ((∃ v, opt = .field OptionContent v) ∧ c.kind = .Note ∧ c.run env opts = .panic) ∨
    (¬ ((∃ v, opt = .field OptionContent v) ∧ c.kind = .Note) ∧
      c.run env opts = c.post env o' (some .other)) := by
  obtain ⟨h1, h2, -, h4⟩ := options_stop c.kind opts (c.base env) (base_sid env c) hl
  obtain ⟨a1, a2, a3, a4⟩ := h4 opt hopt
  have hlb : AllLibrary (beforeObstacle c.kind opts) := fun x hx => hl x (h2 _ hx)
  have hokb : (applyOptions (c.base env) (beforeObstacle c.kind opts)).2 = .ok () := by
    rw [options_ok_iff _ _ hlb, base_sid]; exact h1
  have hs : (applyOptions (c.base env) (beforeObstacle c.kind opts)).1.sid = c.kind := by
    rw [(options_id_type hlb
      (Prod.ext rfl hokb : applyOptions (c.base env) (beforeObstacle c.kind opts) = (_, .ok ()))).1, base_sid]
  have hb := obstacle_apply opt (hl opt a1) (applyOptions (c.base env) (beforeObstacle c.kind opts)).1
    (by rw [hs]; exact a2)
  rw [hs, ← a4] at hb
  show _ ∨ _ ∧ c.run env opts = c.post env (applyOptions (c.base env) (beforeObstacle c.kind opts)).1 _
  rw [← a3, run_eq, hp]
  simp only [withOptions]
  rcases ha : applyOptions (c.base env) opts with ⟨o', r⟩
  rw [ha] at hb
  rcases hb with ⟨e, hv, hn⟩ | ⟨e, hn⟩
  · simp only at e; subst e
    exact .inl ⟨hv, hn, rfl⟩
  · simp only at e; subst e
    exact .inr ⟨hn, rfl⟩

/-- C65: an artifact from a URL with a hash meets the hypotheses and what is needed; from a URL without
a hash it meets the hypotheses only. -/
example :
    AllLibrary [some (.field OptionURL (.str (b!"https://a"))),
      some (.field OptionHashes (.map (some [(b!"MD5", .str (b!"x"))])))] ∧
    ValArgs typed .artifact ∧
    ValOpts typed [some (.field OptionURL (.str (b!"https://a"))),
      some (.field OptionHashes (.map (some [(b!"MD5", .str (b!"x"))])))] ∧
    (∃ o, Ctor.artifact.run exEnv [some (.field OptionURL (.str (b!"https://a"))),
      some (.field OptionHashes (.map (some [(b!"MD5", .str (b!"x"))])))] = .ret (some o) none) ∧
    ¬ Needs [some (.field OptionURL (.str (b!"https://a")))] .artifact := by
  refine ⟨?_, ?_, ?_, ⟨_, rfl⟩, ?_⟩
  · intro opt ho
    simp only [List.mem_cons, Option.some.injEq, List.not_mem_nil, or_false] at ho
    rcases ho with rfl | rfl <;> simp [Library, optTable]
  · intro e he; cases he
  · intro opt ho
    simp only [List.mem_cons, Option.some.injEq, List.not_mem_nil, or_false] at ho
    rcases ho with rfl | rfl
    · exact ⟨_, rfl, trivial⟩
    · refine Or.inr ⟨_, rfl, ?_, ?_⟩
      · simp [SortedKeys]
      · intro e he
        simp only [List.mem_cons, List.not_mem_nil, or_false] at he
        subst he
        exact ⟨trivial, _, rfl, trivial⟩
  · rintro ⟨-, h⟩
    obtain ⟨m, hm⟩ := h ⟨b!"https://a", by decide, rfl⟩
    cases hm

/-- **C66.** A constructor returns an object, an error, or both. -/
theorem c66_something (env : Env) (c : Ctor) (opts : List (Option Opt)) : c.run env opts ≠ .ret none none := by
  intro h
  obtain ⟨-, o', -, -, ⟨-, hx⟩ | ⟨t, -, hx⟩⟩ := run_ok h <;> cases hx

/-- **C66.** A constructor returns both an object and an error exactly when it is not one of those that
look at the error of options, an option is for no property of the object, and its needs are met by the
options before.  (The nil option stands for the one that failed.)

Missing: the property says that it never does. -/
theorem c66_object_and_error_partial (env : Env) (c : Ctor) (opts : List (Option Opt))
    (hl : AllLibrary opts) (ha : ValArgs typed c) (hv : ValOpts typed opts) :
    (∃ o e, c.run env opts = .ret (some o) (some e)) ↔
      ¬ Strict c ∧ ∃ opt, obstacle (promise c).kind opts = some opt ∧
        ¬ ((∃ v, opt = .field OptionContent v) ∧ (promise c).kind = .Note) ∧
        Needs (none :: beforeObstacle (promise c).kind opts) c := by
  rw [promise_kind]
  obtain ⟨h1, h2, h3, h4⟩ := options_stop c.kind opts (c.base env) (base_sid env c) hl
  have hlb : AllLibrary (none :: beforeObstacle c.kind opts) := fun x hx => hl x (h2 _ (by simpa using hx))
  have hvb : ValOpts typed (none :: beforeObstacle c.kind opts) :=
    fun x hx => hv x (h2 _ (by simpa using hx))
  have h65 := c65_succeeds env c _ hlb ha hvb
  rw [run_ok_iff, promise_kind] at h65
  have hall : ∀ opt, some opt ∈ none :: beforeObstacle c.kind opts → (target c.kind opt).isSome = true :=
    fun opt ho => h1 opt (by simpa using ho)
  have hok : (applyOptions (c.base env) (none :: beforeObstacle c.kind opts)).2 = .ok () := by
    rw [options_ok_iff _ _ hlb, base_sid]; exact hall
  rw [iff_true_intro hok, iff_true_intro hall, true_and, true_and] at h65
  cases hob : obstacle c.kind opts with
  | none =>
    simp only [reduceCtorEq, false_and, exists_false, and_false, iff_false]
    rintro ⟨o, e, h⟩
    have hbef := h3 hob
    rw [hbef] at hok
    have hok' : (applyOptions (c.base env) opts).2 = .ok () := hok
    rw [run_eq] at h
    cases hp : c.pre opts.length with
    | some e => rw [hp] at h; cases h
    | none =>
      rw [hp] at h
      simp only [withOptions] at h
      rcases hap : applyOptions (c.base env) opts with ⟨o', r⟩
      rw [hap] at h hok'
      simp only at hok'; subst hok'
      simp only [Ctor.post] at h
      cases hc : c.check o' none with
      | some e => rw [hc] at h; cases h
      | none =>
        rw [hc] at h
        cases ht : c.text env o' with
        | none => rw [ht] at h; cases h
        | some t => rw [ht] at h; cases t <;> cases h
  | some opt =>
    obtain ⟨a1, -⟩ := h4 opt hob
    have hne : opts.length ≠ 0 := by
      intro h
      rw [List.length_eq_zero_iff] at h
      rw [h] at a1
      cases a1
    have hpl := pre_length (c := c) (n := (none :: beforeObstacle c.kind opts).length) (by simp) hne
    rw [hpl] at h65
    simp only [Option.some.injEq, exists_eq_left', ← h65]
    cases hp : c.pre opts.length with
    | some e =>
      simp only [reduceCtorEq, false_and, and_false, iff_false]
      rintro ⟨o, e', h⟩
      rw [run_eq, hp] at h
      cases h
    | none =>
      rcases run_obstacle (env := env) hl hob hp with ⟨b1, b2, b3⟩ | ⟨b1, b2⟩
      · simp only [b3, reduceCtorEq, exists_false, false_iff]
        rintro ⟨-, h, -⟩
        exact h ⟨b1, b2⟩
      · rw [b2]
        simp only [true_and]
        generalize (applyOptions (c.base env) (none :: beforeObstacle c.kind opts)).1 = o'
        constructor
        · rintro ⟨o, e, h⟩
          simp only [Ctor.post] at h
          have hst : ¬ Strict c := by
            intro hst
            cases c <;> first | exact hst.elim | cases h
          refine ⟨hst, b1, ?_⟩
          rw [check_lax hst] at h
          cases hc : c.check o' none with
          | some e => rw [hc] at h; cases h
          | none =>
            rw [hc] at h
            refine ⟨rfl, ?_⟩
            intro r hr
            rw [hr] at h
            cases r with
            | ok t => exact ⟨t, rfl⟩
            | err e => cases h
            | panic => cases h
        · rintro ⟨hst, -, hc, ht⟩
          simp only [Ctor.post, check_lax hst, hc]
          cases hr : c.text env o' with
          | none => exact ⟨_, _, rfl⟩
          | some r =>
            obtain ⟨t, rfl⟩ := ht r hr
            exact ⟨_, _, rfl⟩

/-- **C66.** With one of the three errors the library names, no object is returned.

Missing: with other errors one may be. -/
theorem c66_named_error_partial (env : Env) (c : Ctor) (opts : List (Option Opt)) (hl : AllLibrary opts)
    (x : Option Obj) (e : Err) (he : e ≠ .other) (h : c.run env opts = .ret x (some e)) : x = none := by
  cases x with
  | none => rfl
  | some o =>
    exfalso
    rw [run_eq] at h
    cases hp : c.pre opts.length with
    | some e => rw [hp] at h; cases h
    | none =>
      rw [hp] at h
      simp only [withOptions] at h
      rcases hap : applyOptions (c.base env) opts with ⟨o', r⟩
      rw [hap] at h
      have key : ∀ {e'}, c.post env o' e' = .ret (some o) (some e) → e' = some e := by
        intro e' h
        simp only [Ctor.post] at h
        cases hc : c.check o' e' with
        | some e => rw [hc] at h; cases h
        | none =>
          rw [hc] at h
          cases ht : c.text env o' with
          | none => rw [ht] at h; cases h; rfl
          | some t =>
            rw [ht] at h
            cases t <;> cases h
            rfl
      cases r with
      | ok u => cases key h
      | panic => cases h
      | err e' =>
        cases key h
        exact he (options_err _ opts hl e (by rw [hap]))

theorem post_panics {env : Env} {c : Ctor} {o : Obj} {e : Option Err} (h : c.post env o e = .panic) :
    c = .registryKey ∧ ∀ t, registryContrib o ≠ .ok t := by
  simp only [Ctor.post] at h
  cases hc : c.check o e with
  | some e => rw [hc] at h; cases h
  | none =>
    rw [hc] at h
    cases c <;> first | (cases h) | skip
    refine ⟨rfl, fun t ht => ?_⟩
    simp only [Ctor.text, ht] at h
    cases h

theorem registry_nil (env : Env) (opts : List (Option Opt)) (hl : AllLibrary opts)
    (hv : ValOpts typed opts) (hok : ∀ opt, some opt ∈ opts → (target .RegistryKey opt).isSome = true) :
    (∀ t, registryContrib (applyOptions (Ctor.registryKey.base env) opts).1 ≠ .ok t) ↔
      ∃ l, endsAs .registryKey opts (b!"values") = some (.slice (some l)) ∧ GV.ptr none ∈ l := by
  have h := c65_succeeds env .registryKey (none :: opts) (fun x hx => hl x (by simpa using hx))
    (by intro e he; cases he) (fun x hx => hv x (by simpa using hx))
  rw [run_ok_iff] at h
  have hall : ∀ opt, some opt ∈ none :: opts → (target (promise .registryKey).kind opt).isSome = true :=
    fun opt ho => hok opt (by simpa using ho)
  have hok' : (applyOptions (Ctor.registryKey.base env) (none :: opts)).2 = .ok () := by
    rw [options_ok_iff _ _ (fun x hx => hl x (by simpa using hx)), base_sid]
    exact hall
  rw [iff_true_intro hok', iff_true_intro hall, true_and, true_and] at h
  have e : endsAs .registryKey (none :: opts) (b!"values") = endsAs .registryKey opts (b!"values") := rfl
  simp only [Ctor.pre, List.length_cons, Nat.add_eq_zero_iff, one_ne_zero, and_false, if_false, Ctor.check,
    Ctor.text, Option.some.injEq, forall_eq', true_and, Needs, ne_eq, reduceCtorEq, not_false_eq_true, e] at h
  rw [show applyOptions (Ctor.registryKey.base env) (none :: opts) =
    applyOptions (Ctor.registryKey.base env) opts from rfl] at h
  constructor
  · intro hn
    by_contra hc
    push Not at hc
    obtain ⟨t, ht⟩ := h.2 fun l hl' hm => hc l hl' hm
    exact hn t ht
  · rintro ⟨l, h1, h2⟩ t ht
    exact h.1 ⟨t, ht⟩ l h1 h2

/-- **C66.** A constructor panics exactly in two cases: `NewNote` with the content option among its
options, unless an option before it fails, and `NewRegistryKey` with a nil registry value among those
that the options give.

Missing: the property says that none does. -/
theorem c66_panics_iff_partial (env : Env) (c : Ctor) (opts : List (Option Opt)) (hl : AllLibrary opts)
    (hv : ValOpts typed opts) :
    c.run env opts = .panic ↔
      (∃ n os v, c = .note n os ∧ Filled os ∧ obstacle .Note opts = some (.field OptionContent v)) ∨
      (c = .registryKey ∧ opts ≠ [] ∧ ∃ l, GV.ptr none ∈ l ∧
        endsAs c (beforeObstacle .RegistryKey opts) (b!"values") = some (.slice (some l))) := by
  have hb : ∀ s, AllLibrary (beforeObstacle s opts) ∧ ValOpts typed (beforeObstacle s opts) ∧
      ∀ opt, some opt ∈ beforeObstacle s opts → (target s opt).isSome = true := by
    intro s
    obtain ⟨h1, h2, -⟩ := options_stop s opts (zeroObj s) rfl hl
    exact ⟨fun x hx => hl x (h2 _ hx), fun x hx => hv x (h2 _ hx), h1⟩
  have hreg := registry_nil env _ (hb .RegistryKey).1 (hb .RegistryKey).2.1 (hb .RegistryKey).2.2
  -- the run after the argument tests
  have key : c.pre opts.length = none → (c.run env opts = .panic ↔
      ((∃ v, obstacle c.kind opts = some (.field OptionContent v)) ∧ c.kind = .Note) ∨
      (c = .registryKey ∧
        ∀ t, registryContrib (applyOptions (Ctor.registryKey.base env)
          (beforeObstacle .RegistryKey opts)).1 ≠ .ok t)) := by
    intro hp
    cases hob : obstacle c.kind opts with
    | none =>
      have hbef := (options_stop c.kind opts (c.base env) (base_sid env c) hl).2.2.1 hob
      have hok := (hb c.kind).2.2
      rw [hbef] at hok
      have hok' : (applyOptions (c.base env) opts).2 = .ok () := by
        rw [options_ok_iff _ _ hl, base_sid]; exact hok
      have hrun : c.run env opts = c.post env (applyOptions (c.base env) opts).1 none := by
        rw [run_eq, hp]
        simp only [withOptions]
        rcases hap : applyOptions (c.base env) opts with ⟨o', r⟩
        rw [hap] at hok'
        simp only at hok'; subst hok'
        rfl
      rw [hrun]
      simp only [reduceCtorEq, exists_false, false_and, false_or]
      constructor
      · intro h
        obtain ⟨rfl, h2⟩ := post_panics h
        refine ⟨rfl, ?_⟩
        rw [show beforeObstacle .RegistryKey opts = opts from hbef]
        exact h2
      · rintro ⟨rfl, h⟩
        rw [show beforeObstacle .RegistryKey opts = opts from hbef] at h
        simp only [Ctor.post, Ctor.check, Ctor.text]
    | some opt =>
      rcases run_obstacle (env := env) hl hob hp with ⟨⟨v, b1⟩, b2, b3⟩ | ⟨b1, b2⟩
      · simp only [b3, true_iff]
        exact .inl ⟨⟨v, by rw [b1]⟩, b2⟩
      · rw [b2]
        constructor
        · intro h
          obtain ⟨rfl, h2⟩ := post_panics h
          exact .inr ⟨rfl, h2⟩
        · rintro (⟨⟨v, h1⟩, h2⟩ | ⟨rfl, h⟩)
          · exact absurd ⟨⟨v, Option.some.inj h1⟩, h2⟩ b1
          · have h' : ∀ t, registryContrib (applyOptions (Ctor.registryKey.base env)
                (none :: beforeObstacle Ctor.registryKey.kind opts)).1 ≠ .ok t := h
            simp only [Ctor.post, Ctor.check, Ctor.text]
  have hlen : opts ≠ [] ↔ opts.length ≠ 0 := by simp
  cases hp : c.pre opts.length with
  | some e =>
    have hrun : c.run env opts ≠ .panic := by
      rw [run_eq, hp]
      exact fun h => by cases h
    refine iff_of_false hrun ?_
    rintro (⟨n, os, v, rfl, hf, -⟩ | ⟨rfl, hne, -⟩)
    · rw [filled_iff] at hf
      simp only [Ctor.pre, if_neg hf] at hp
      cases hp
    · rw [hlen] at hne
      simp only [Ctor.pre, if_neg hne] at hp
      cases hp
  | none =>
    rw [key hp, hreg]
    constructor
    · rintro (⟨⟨v, h1⟩, h2⟩ | ⟨rfl, l, h1, h2⟩)
      · have : ∃ n os, c = .note n os := by
          cases c <;> simp only [Ctor.kind, reduceCtorEq] at h2
          exact ⟨_, _, rfl⟩
        obtain ⟨n, os, rfl⟩ := this
        refine .inl ⟨n, os, v, rfl, ?_, h1⟩
        rw [filled_iff]
        intro hf
        simp only [Ctor.pre, if_pos hf] at hp
        cases hp
      · refine .inr ⟨rfl, ?_, l, h2, h1⟩
        rw [hlen]
        intro hne
        simp only [Ctor.pre, if_pos hne] at hp
        cases hp
    · rintro (⟨n, os, v, rfl, -, h⟩ | ⟨rfl, -, l, h1, h2⟩)
      · exact .inl ⟨⟨v, h⟩, rfl⟩
      · exact .inr ⟨rfl, l, h2, h1⟩

/-- **C66 is false**: a tool with a count is returned together with an error, and a registry key with a
nil value panics. -/
theorem c66_false :
    (∃ o e, (Ctor.tool (b!"nmap")).run exEnv [some (.field OptionCount (.int 3))] =
      .ret (some o) (some e)) ∧
    Ctor.registryKey.run exEnv [some (.field OptionValues (.slice (some [.ptr none])))] = .panic ∧
    (Ctor.note (b!"n") (some [b!"x"])).run exEnv [some (.field OptionContent (.str (b!"c")))] = .panic :=
  ⟨⟨_, _, rfl⟩, rfl, rfl⟩

/-- C66: the tool with an option for sightings, and the note with an option for its content, meet the
hypotheses. -/
example :
    AllLibrary [some (.field OptionVersion (.str (b!"7"))), some (.field OptionCount (.int 3))] ∧
    ValArgs typed (.tool (b!"nmap")) ∧
    ValOpts typed [some (.field OptionVersion (.str (b!"7"))), some (.field OptionCount (.int 3))] ∧
    obstacle .Tool [some (.field OptionVersion (.str (b!"7"))), some (.field OptionCount (.int 3))] =
      some (.field OptionCount (.int 3)) ∧
    beforeObstacle .Tool [some (.field OptionVersion (.str (b!"7"))), some (.field OptionCount (.int 3))] =
      [some (.field OptionVersion (.str (b!"7")))] ∧
    obstacle .Note [some (.field OptionContent (.str (b!"c")))] =
      some (.field OptionContent (.str (b!"c"))) := by
  refine ⟨?_, ?_, ?_, rfl, rfl, rfl⟩
  · intro opt ho
    simp only [List.mem_cons, Option.some.injEq, List.not_mem_nil, or_false] at ho
    rcases ho with rfl | rfl <;> simp [Library, optTable]
  · intro e he r hr hk
    simp only [promise, List.mem_cons, List.not_mem_nil, or_false] at he
    subst he
    have h : ∀ r ∈ objFields .Tool, r.key = b!"name" → r.ty.isStr = true := by decide +kernel
    exact val_text (h r hr hk) trivial
  · intro opt ho
    simp only [List.mem_cons, Option.some.injEq, List.not_mem_nil, or_false] at ho
    rcases ho with rfl | rfl <;> exact ⟨_, rfl, trivial⟩

end Stix

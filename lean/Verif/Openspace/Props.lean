import Verif.Openspace.LuaProps
import Verif.Mpc.Lemmas
import Mathlib.Tactic.Linarith
import Mathlib.Tactic.NormNum
import Mathlib.Data.List.Nodup

/-! # Trails and epochs for OpenSpace: the properties -/

namespace Verif.Openspace.Props

open Verif Mpc Openspace

variable {K : Type}

/-- The attribute of a dictionary. -/
def find : Fields K → Str → Option (Val K)
  | .nil, _ => none
  | .cons k v fs, x => if k = x then some v else find fs x

/-- The value at a path of attributes. -/
def atPath : Val K → List Str → Option (Val K)
  | v, [] => some v
  | .dict fs, k :: ks => (find fs k).bind fun v => atPath v ks
  | _, _ :: _ => none

/-- How many nodes an orbit has. -/
def nodes (op : Options K) : Nat := if op.head then 2 else 1

variable [Field K]

theorem localName_inj {m n : Nat} (h : localName m = localName n) : m = n := by
  have := congrArg (fun s => Nat.ofDigitChars 10 s 0) (List.append_cancel_left h)
  simpa only [ofDigits_zfill_dec] using this

/-- The declarations without an exception. -/
def expected (op : Options K) (ts : Orbit K → Val K) : Nat → List (Orbit K) → List (Str × Val K)
  | _, [] => []
  | n, o :: l => (localName n, trailAsset op o (ts o)) ::
    ((if op.head then [(localName (n + 1), headAsset op o (ts o))] else []) ++ expected op ts (n + nodes op) l)

/-- The translation, if there is one. -/
def trans (au : K) (op : Options K) (o : Orbit K) : Val K :=
  match translationOf au op o with
  | .ok t => t
  | .error _ => .none

theorem declare_ok (au : K) (op : Options K) : ∀ (n : Nat) (l : List (Orbit K)),
    (∀ o ∈ l, ∃ t, translationOf au op o = .ok t) → declare au op n l = (expected op (trans au op) n l, none)
  | _, [], _ => rfl
  | n, o :: l, h => by
    obtain ⟨t, ht⟩ := h o (by simp)
    have ht' : trans au op o = t := by unfold trans; rw [ht]
    have ih := declare_ok au op (n + nodes op) l fun o' ho' => h o' (List.mem_cons_of_mem _ ho')
    unfold declare expected
    rw [ht, ht']
    simp only
    have e : n + ((localName n, trailAsset op o t) :: if op.head then [(localName (n + 1), headAsset op o t)] else []).length
        = n + nodes op := by
      unfold nodes
      cases op.head <;> rfl
    rw [e, ih]
    rfl

theorem declare_error (au : K) (op : Options K) {e : Err} : ∀ (n : Nat) (pre : List (Orbit K)) (o : Orbit K) (post : List (Orbit K)),
    (∀ o ∈ pre, ∃ t, translationOf au op o = .ok t) → translationOf au op o = .error e →
    declare au op n (pre ++ o :: post) = (expected op (trans au op) n pre, some e)
  | _, [], o, post, _, he => by
    rw [List.nil_append]
    unfold declare
    rw [he]
    rfl
  | n, p :: pre, o, post, h, he => by
    obtain ⟨t, ht⟩ := h p (by simp)
    have ht' : trans au op p = t := by unfold trans; rw [ht]
    have ih := declare_error au op (n + nodes op) pre o post (fun o' ho' => h o' (List.mem_cons_of_mem _ ho')) he
    rw [List.cons_append]
    unfold declare expected
    rw [ht, ht']
    simp only
    have e : n + ((localName n, trailAsset op p t) :: if op.head then [(localName (n + 1), headAsset op p t)] else []).length
        = n + nodes op := by
      unfold nodes
      cases op.head <;> rfl
    rw [e, ih]
    rfl

theorem expected_names (op : Options K) (ts : Orbit K → Val K) : ∀ (n : Nat) (l : List (Orbit K)),
    (expected op ts n l).map Prod.fst = (List.range (nodes op * l.length)).map fun i => localName (n + i)
  | n, [] => by simp [expected]
  | n, o :: l => by
    have ih := expected_names op ts (n + nodes op) l
    unfold expected
    rw [List.map_cons, List.map_append, ih, List.length_cons, Nat.mul_succ, Nat.add_comm (nodes op * l.length), List.range_add,
      List.map_append, List.map_map]
    have e : ((fun i => localName (n + i)) ∘ fun x => nodes op + x) = fun i => localName (n + nodes op + i) := by
      funext i
      simp [Nat.add_assoc]
    rw [e]
    unfold nodes
    cases op.head <;> rfl

theorem expected_get (op : Options K) (ts : Orbit K → Val K) : ∀ (n : Nat) (l : List (Orbit K)) (i : Nat) (o : Orbit K), l[i]? = some o →
    (expected op ts n l)[nodes op * i]? = some (localName (n + nodes op * i), trailAsset op o (ts o)) ∧
    (op.head = true → (expected op ts n l)[nodes op * i + 1]? = some (localName (n + nodes op * i + 1), headAsset op o (ts o)))
  | n, [], i, o, h => by simp at h
  | n, p :: l, 0, o, h => by
    cases h
    unfold expected
    refine ⟨rfl, ?_⟩
    intro hh
    rw [hh]
    rfl
  | n, p :: l, i + 1, o, h => by
    obtain ⟨h1, h2⟩ := expected_get op ts (n + nodes op) l i o h
    have e : ∀ j, (expected op ts n (p :: l))[nodes op + j]? = (expected op ts (n + nodes op) l)[j]? := by
      intro j
      conv_lhs => unfold expected
      unfold nodes
      cases op.head
      · rw [Nat.add_comm (if false = true then 2 else 1) j]; rfl
      · rw [Nat.add_comm (if true = true then 2 else 1) j]; rfl
    have e1 : nodes op * (i + 1) = nodes op + nodes op * i := by rw [Nat.mul_succ, Nat.add_comm]
    constructor
    · rw [e1, e, h1, Nat.add_assoc]
    · intro hh
      rw [e1, Nat.add_assoc, e, h2 hh]
      simp only [Nat.add_assoc]

/-- Options that are accepted. -/
def Accepted (op : Options K) : Prop :=
  (∀ r, op.rendering = some r → r ∈ ["Lines".toList, "Points".toList, "Lines+Points".toList]) ∧
  (∀ r, op.renderBinMode = some r → r ∈ ["Background".toList, "Opaque".toList, "PreDeferredTransparent".toList, "Overlay".toList,
    "PostDeferredTransparent".toList, "Sticker".toList]) ∧
  (op.translation = .spice → op.kernelPath ≠ none ∧ op.ids ≠ none)

theorem trail_eq (shw : K → Str) (au : K) (kernel : Str → Str) (op : Options K) (orbits : List (Orbit K)) :
    (¬ Accepted op → trail shw au kernel op orbits = (none, .error (.py .valueError))) ∧
    (Accepted op → trail shw au kernel op orbits = match declare au op 0 orbits with
      | (decls, some e) => (some (declText shw decls), .error e)
      | (decls, none) => (some (declText shw decls ++ initText (decls.map Prod.fst) ++
          if op.translation = .spice then kernel (op.kernelPath.getD []) else []), .ok ())) := by
  have h1 : (op.rendering.any fun r => decide (r ∉ trailRenderings)) = true ↔
      ¬ ∀ r, op.rendering = some r → r ∈ ["Lines".toList, "Points".toList, "Lines+Points".toList] := by
    cases op.rendering with
    | none => simp
    | some r =>
      rw [Option.any_some, decide_eq_true_eq]
      constructor
      · intro h h'; exact h (h' r rfl)
      · intro h h'; exact h fun r' e => by cases e; exact h'
  have h2 : (op.renderBinMode.any fun r => decide (r ∉ renderBinModes)) = true ↔
      ¬ ∀ r, op.renderBinMode = some r → r ∈ ["Background".toList, "Opaque".toList, "PreDeferredTransparent".toList, "Overlay".toList,
        "PostDeferredTransparent".toList, "Sticker".toList] := by
    cases op.renderBinMode with
    | none => simp
    | some r =>
      rw [Option.any_some, decide_eq_true_eq]
      constructor
      · intro h h'; exact h (h' r rfl)
      · intro h h'; exact h fun r' e => by cases e; exact h'
  have h3 : (op.translation = .spice ∧ (op.kernelPath = none ∨ op.ids.isNone)) ↔
      ¬ (op.translation = .spice → op.kernelPath ≠ none ∧ op.ids ≠ none) := by
    rw [Option.isNone_iff_eq_none]
    tauto
  unfold trail Accepted
  constructor
  · intro hn
    by_cases c1 : (op.rendering.any fun r => decide (r ∉ trailRenderings)) = true
    · rw [if_pos c1]
    rw [if_neg c1]
    by_cases c2 : (op.renderBinMode.any fun r => decide (r ∉ renderBinModes)) = true
    · rw [if_pos c2]
    rw [if_neg c2, if_pos]
    rw [h3]
    intro c3
    exact hn ⟨not_not.mp fun h => c1 (h1.mpr h), not_not.mp fun h => c2 (h2.mpr h), c3⟩
  · rintro ⟨c1, c2, c3⟩
    rw [if_neg (fun h => h1.mp h c1), if_neg (fun h => h2.mp h c2), if_neg (fun h => h3.mp h c3)]
    rfl

/-- Trails that are written: nodes Object00000000, Object00000001, ..., all names distinct, in the order of the orbits, each trail followed
by its head if there are heads; the initialisation is for exactly these nodes. Identifiers are the names of the objects, or of the orbits
without one, with underscores for blanks. The translations of trail and head are the same. -/
theorem C160_nodes {shw : K → Str} {au : K} {kernel : Str → Str} {op : Options K} {orbits : List (Orbit K)} {file : Option Str}
    (h : trail shw au kernel op orbits = (file, .ok ())) :
    ∃ decls : List (Str × Val K), (∃ rest, file = some (declText shw decls ++ initText (decls.map Prod.fst) ++ rest)) ∧
      decls.length = (if op.head then 2 else 1) * orbits.length ∧ (decls.map Prod.fst).Nodup ∧
      (∀ (k : Nat) (p : Str × Val K), decls[k]? = some p → p.1 = "Object".toList ++ zfill 8 (dec k)) ∧
      ∀ (i : Nat) (o : Orbit K), orbits[i]? = some o →
        ∃ p, decls[(if op.head then 2 else 1) * i]? = some p ∧
          atPath p.2 ["identifier".toList] = some (.str ((o.objectId.getD o.orbitId).map fun c => if c = ' ' then '_' else c)) ∧
          (op.head = true → ∃ q, decls[2 * i + 1]? = some q ∧
            atPath q.2 ["identifier".toList] =
              some (.str (((o.objectId.getD o.orbitId).map fun c => if c = ' ' then '_' else c) ++ "_Head".toList)) ∧
            atPath q.2 ["transform".toList, "translation".toList] = atPath p.2 ["renderable".toList, "translation".toList]) := by
  by_cases hA : Accepted op
  swap
  · rw [(trail_eq shw au kernel op orbits).1 hA] at h
    cases h
  rw [(trail_eq shw au kernel op orbits).2 hA] at h
  have hall : ∀ o ∈ orbits, ∃ t, translationOf au op o = .ok t := by
    by_contra hn
    push Not at hn
    have key : ∀ (l : List (Orbit K)), (∃ o ∈ l, ∀ t, translationOf au op o ≠ .ok t) → ∃ pre o post e, l = pre ++ o :: post ∧
        (∀ o ∈ pre, ∃ t, translationOf au op o = .ok t) ∧ translationOf au op o = .error e := by
      intro l
      induction l with
      | nil => rintro ⟨o, ho, -⟩; cases ho
      | cons a l ih =>
        intro hex
        cases ha : translationOf au op a with
        | error e => exact ⟨[], a, l, e, rfl, by simp, ha⟩
        | ok t =>
          obtain ⟨o, ho, hot⟩ := hex
          rcases List.mem_cons.mp ho with rfl | ho
          · exact absurd ha (hot t)
          · obtain ⟨pre, o', post, e, rfl, h1, h2⟩ := ih ⟨o, ho, hot⟩
            refine ⟨a :: pre, o', post, e, rfl, ?_, h2⟩
            intro x hx
            rcases List.mem_cons.mp hx with rfl | hx
            · exact ⟨t, ha⟩
            · exact h1 x hx
    obtain ⟨pre, o, post, e, rfl, h1, h2⟩ := key orbits hn
    rw [declare_error au op 0 pre o post h1 h2] at h
    cases h
  rw [declare_ok au op 0 orbits hall] at h
  simp only at h
  have hfile := congrArg Prod.fst h
  simp only at hfile
  have hnames := expected_names op (trans au op) 0 orbits
  refine ⟨expected op (trans au op) 0 orbits, ⟨_, hfile.symm⟩, ?_, ?_, ?_, ?_⟩
  · have := congrArg List.length hnames
    rw [List.length_map, List.length_map, List.length_range] at this
    rw [this]
    rfl
  · rw [hnames]
    refine List.Nodup.map ?_ List.nodup_range
    intro a b hab
    exact Nat.add_left_cancel (localName_inj hab)
  · intro k p hk
    have h1 : ((expected op (trans au op) 0 orbits).map Prod.fst)[k]? = some p.1 := by rw [List.getElem?_map, hk]; rfl
    rw [hnames, List.getElem?_map, List.getElem?_range] at h1
    · simp only [Option.map_some, Option.some.injEq, Nat.zero_add] at h1
      exact h1.symm
    · have := (List.getElem?_eq_some_iff.mp hk).1
      have hl := congrArg List.length hnames
      rw [List.length_map, List.length_map, List.length_range] at hl
      omega
  · intro i o hi
    obtain ⟨h1, h2⟩ := expected_get op (trans au op) 0 orbits i o hi
    refine ⟨_, h1, rfl, ?_⟩
    intro hh
    have h2' := h2 hh
    have e : nodes op * i + 1 = 2 * i + 1 := by unfold nodes; rw [hh]; rfl
    rw [e] at h2'
    exact ⟨_, h2', rfl, rfl⟩

/-- The elements of a Keplerian translation are those of the orbit, the axis in kilometres, and the periods agree: that of the trail in
days, if none is given, and that of the translation in seconds; an orbit without period has 10000 days. -/
theorem C160_kepler {shw : K → Str} {au : K} {kernel : Str → Str} {op : Options K} {orbits : List (Orbit K)}
    (hA : Accepted op) (hk : op.translation = .kepler) :
    ∃ decls : List (Str × Val K), trail shw au kernel op orbits =
        (some (declText shw decls ++ initText (decls.map Prod.fst)), .ok ()) ∧
      ∀ (i : Nat) (o : Orbit K), orbits[i]? = some o → ∃ p, decls[(if op.head then 2 else 1) * i]? = some p ∧
        (∀ k v, (k, v) ∈ [("eccentricity".toList, Val.num o.e), ("inclination".toList, .num o.i), ("ascending_node".toList, .num o.raan),
          ("argument_of_periapsis".toList, .num o.ap), ("mean_anomaly".toList, .num o.ma), ("semi_major_axis".toList, .num (o.a * au)),
          ("epoch".toList, .str o.epoch)] → atPath p.2 ["renderable".toList, "translation".toList, k] = some v) ∧
        ∃ P, (∀ x, o.period = some x → P = x) ∧ (o.period = none → P = 10000) ∧
          atPath p.2 ["renderable".toList, "translation".toList, "period".toList] = some (.num (P * 86400)) ∧
          (op.period = none → atPath p.2 ["renderable".toList, "period".toList] = some (.num P)) := by
  have hall : ∀ o ∈ orbits, ∃ t, translationOf au op o = .ok t := by
    intro o _
    unfold translationOf
    rw [hk]
    exact ⟨_, rfl⟩
  rw [(trail_eq shw au kernel op orbits).2 hA, declare_ok au op 0 orbits hall]
  simp only
  rw [if_neg (by rw [hk]; decide), List.append_nil]
  refine ⟨_, rfl, ?_⟩
  intro i o hi
  obtain ⟨h1, -⟩ := expected_get op (trans au op) 0 orbits i o hi
  refine ⟨_, h1, ?_, safePeriod o.period, ?_, ?_, ?_, ?_⟩
  · have ht : trans au op o = (match translationOf au { op with translation := .kepler } o with
        | .ok t => t
        | .error _ => .none) := by
      unfold trans
      rw [← hk]
    intro k v hkv
    rw [ht]
    simp only [List.mem_cons, Prod.mk.injEq, List.not_mem_nil, or_false] at hkv
    rcases hkv with ⟨rfl, rfl⟩ | ⟨rfl, rfl⟩ | ⟨rfl, rfl⟩ | ⟨rfl, rfl⟩ | ⟨rfl, rfl⟩ | ⟨rfl, rfl⟩ | ⟨rfl, rfl⟩ <;> rfl
  · intro x hx
    rw [hx]
    rfl
  · intro hx
    rw [hx]
    rfl
  · have ht : trans au op o = (match translationOf au { op with translation := .kepler } o with
        | .ok t => t
        | .error _ => .none) := by
      unfold trans
      rw [← hk]
    rw [ht]
    rfl
  · intro hp
    show some (Val.num (op.period.getD (safePeriod o.period))) = _
    rw [hp]
    rfl

/-- What is refused. Options that are not accepted are a ValueError before any file is touched. With SPICE an object without SPICE id is a
KeyError, and the file is left with the declarations of the orbits before it and nothing else. Any other kind of translation is an
UnboundLocalError with an empty file, and no error at all if there are no orbits. -/
theorem C160_errors (shw : K → Str) (au : K) (kernel : Str → Str) (op : Options K) (orbits : List (Orbit K)) :
    (¬ Accepted op → trail shw au kernel op orbits = (none, .error (.py .valueError))) ∧
    (Accepted op → op.translation = .spice → ∀ (ids : Str → Option (Val K)), op.ids = some ids →
      ((∀ o ∈ orbits, ids (o.objectId.getD o.orbitId) ≠ none) → ∃ file, trail shw au kernel op orbits = (some file, .ok ())) ∧
      ∀ pre o post, orbits = pre ++ o :: post → (∀ p ∈ pre, ids (p.objectId.getD p.orbitId) ≠ none) →
        ids (o.objectId.getD o.orbitId) = none → ∃ decls : List (Str × Val K), decls.length = (if op.head then 2 else 1) * pre.length ∧
          trail shw au kernel op orbits = (some (declText shw decls), .error (.py .keyError))) ∧
    (Accepted op → op.translation = .other → trail shw au kernel op orbits =
      if orbits = [] then (some (initText []), .ok ()) else (some [], .error .unbound)) := by
  refine ⟨(trail_eq shw au kernel op orbits).1, ?_, ?_⟩
  · intro hA hs ids hids
    have htr : ∀ o, ids (o.objectId.getD o.orbitId) ≠ none → ∃ t, translationOf au op o = .ok t := by
      intro o ho
      obtain ⟨x, hx⟩ := Option.ne_none_iff_exists'.mp ho
      unfold translationOf Orbit.object
      rw [hs, hids]
      simp only [Option.getD_some, hx]
      exact ⟨_, rfl⟩
    rw [(trail_eq shw au kernel op orbits).2 hA]
    constructor
    · intro hall
      rw [declare_ok au op 0 orbits fun o ho => htr o (hall o ho)]
      exact ⟨_, rfl⟩
    · rintro pre o post rfl hpre ho
      have he : translationOf au op o = .error (.py .keyError) := by
        unfold translationOf Orbit.object
        rw [hs, hids]
        simp only [Option.getD_some, ho]
      rw [declare_error au op 0 pre o post (fun p hp => htr p (hpre p hp)) he]
      refine ⟨_, ?_, rfl⟩
      have := congrArg List.length (expected_names op (trans au op) 0 pre)
      rw [List.length_map, List.length_map, List.length_range] at this
      rw [this]
      rfl
  · intro hA ho
    rw [(trail_eq shw au kernel op orbits).2 hA]
    cases orbits with
    | nil =>
      simp only [declare]
      rw [if_neg (by rw [ho]; decide)]
      rfl
    | cons o l =>
      have he : translationOf au op o = .error .unbound := by
        unfold translationOf
        rw [ho]
      have := declare_error au op 0 [] o l (by simp) he
      rw [List.nil_append] at this
      rw [this]
      rfl

/-- Name, transparency, tags and the like are accepted and have no effect on what is written. -/
theorem C160_ignored (shw : K → Str) (au : K) (kernel : Str → Str) (op : Options K) (orbits : List (Orbit K)) (guiName : Option Str)
    (dim enabled : Option Bool) (opacity : Option K) (tag : Option (List Str)) :
    trail shw au kernel { op with guiName := guiName, dimInAtmosphere := dim, enabled := enabled, opacity := opacity, tag := tag } orbits
      = trail shw au kernel op orbits := by
  have key : ∀ (n : Nat) (l : List (Orbit K)), declare au
      { op with guiName := guiName, dimInAtmosphere := dim, enabled := enabled, opacity := opacity, tag := tag } n l = declare au op n l := by
    intro n l
    induction l generalizing n with
    | nil => rfl
    | cons o l ih =>
      unfold declare
      have e : translationOf au { op with guiName := guiName, dimInAtmosphere := dim, enabled := enabled, opacity := opacity, tag := tag } o
          = translationOf au op o := rfl
      rw [e]
      cases translationOf au op o with
      | error e => rfl
      | ok t =>
        simp only
        rw [ih]
        rfl
  unfold trail
  rw [key]

/-- The options of a plain call. -/
def plainOptions : Options ℚ :=
  ⟨true, none, none, [1, 1, 1], 86400, .kepler, none, none, none, none, none, none, none, none, none, none, none, none, none, none⟩

/-- An orbit called `s`. -/
def orbitOf (s : Str) : Orbit ℚ := ⟨s, none, "t".toList, 1, 0, 0, 0, 0, 0, some 365⟩

/-- Different objects may get the same identifier. -/
theorem C160_identifiers_false :
    ¬ ∀ (orbits : List (Orbit ℚ)), (orbits.map fun o => o.objectId.getD o.orbitId).Nodup →
      ((declare 1 plainOptions 0 orbits).1.map fun p => (atPath p.2 ["identifier".toList]).map fun v =>
        match v with
        | .str s => s
        | _ => []).Nodup := by
  intro h
  have := h [orbitOf "A B".toList, orbitOf "A_B".toList] (by decide +kernel)
  revert this
  decide +kernel

/-- Not every value of `render_bin_mode` in the signature is accepted. -/
theorem C160_modes_false :
    ¬ ∀ mode ∈ ["Opaque".toList, "Transparent".toList, "Both".toList], ∀ (shw : ℚ → Str) (kernel : Str → Str) (orbits : List (Orbit ℚ)),
      (trail shw 1 kernel { plainOptions with renderBinMode := some mode } orbits).2 = .ok () := by
  intro h
  have := h "Both".toList (by simp) (fun _ => []) id []
  rw [(trail_eq _ _ _ _ _).1] at this
  · cases this
  · rintro ⟨-, h2, -⟩
    have := h2 "Both".toList rfl
    revert this
    decide

example : Accepted plainOptions := ⟨fun r h => (by cases h), fun r h => (by cases h), fun h => (by cases h)⟩

/-! ### initialisation -/

theorem intercalate_two (A B : List Str) (hA : A ≠ []) (hB : B ≠ []) :
    List.intercalate ['\n'] A ++ '\n' :: List.intercalate ['\n'] B = List.intercalate ['\n'] (A ++ B) := by
  induction A with
  | nil => exact absurd rfl hA
  | cons a A ih =>
    cases A with
    | nil =>
      cases B with
      | nil => exact absurd rfl hB
      | cons b B => simp [List.intercalate, List.intersperse]
    | cons a' A =>
      have := ih (by simp)
      simp only [List.intercalate, List.intersperse, List.flatten_cons, List.cons_append, List.append_assoc, List.nil_append] at this ⊢
      rw [this]

/-- The last lines add every node when the asset is loaded and remove every node when it is unloaded. -/
theorem C160_initialization (assets : List Str) (h : ∀ a ∈ assets, '\n' ∉ a) :
    (initText assets).splitOn '\n' =
      ["asset.onInitialize(function ()".toList] ++ assets.map (fun a => "  openspace.addSceneGraphNode(".toList ++ a ++ ");".toList) ++
      ["end)".toList, "asset.onDeinitialize(function ()".toList] ++
      assets.map (fun a => "  openspace.removeSceneGraphNode(".toList ++ a ++ ");".toList) ++ ["end)".toList] := by
  unfold initText
  simp only
  rw [intercalate_two _ _ (by simp) (by simp)]
  have e1 : ∀ a : Str, "  openspace.".toList ++ "addSceneGraphNode".toList ++ '(' :: a ++ ");".toList =
      "  openspace.addSceneGraphNode(".toList ++ a ++ ");".toList := by
    intro a
    have : "  openspace.addSceneGraphNode(".toList = "  openspace.".toList ++ "addSceneGraphNode".toList ++ ['('] := by decide
    rw [this]
    simp only [List.append_assoc, List.cons_append, List.nil_append]
  have e2 : ∀ a : Str, "  openspace.".toList ++ "removeSceneGraphNode".toList ++ '(' :: a ++ ");".toList =
      "  openspace.removeSceneGraphNode(".toList ++ a ++ ");".toList := by
    intro a
    have : "  openspace.removeSceneGraphNode(".toList = "  openspace.".toList ++ "removeSceneGraphNode".toList ++ ['('] := by decide
    rw [this]
    simp only [List.append_assoc, List.cons_append, List.nil_append]
  simp only [e1, e2]
  rw [List.splitOn_intercalate]
  · simp only [List.append_assoc, List.cons_append, List.nil_append]
  · intro l hl
    have s1 : '\n' ∉ "asset.onInitialize(function ()".toList := by decide
    have s2 : '\n' ∉ "asset.onDeinitialize(function ()".toList := by decide
    have s3 : '\n' ∉ "end)".toList := by decide
    have s4 : '\n' ∉ "  openspace.addSceneGraphNode(".toList := by decide
    have s5 : '\n' ∉ "  openspace.removeSceneGraphNode(".toList := by decide
    have s6 : '\n' ∉ ");".toList := by decide
    simp only [List.mem_append, List.mem_cons, List.mem_map, List.not_mem_nil, or_false] at hl
    rcases hl with ((rfl | ⟨a, ha, rfl⟩) | rfl) | ((rfl | ⟨a, ha, rfl⟩) | rfl)
    · exact s1
    · intro hm
      rcases List.mem_append.mp hm with hm | hm
      · rcases List.mem_append.mp hm with hm | hm
        · exact s4 hm
        · exact h a ha hm
      · exact s6 hm
    · exact s3
    · exact s2
    · intro hm
      rcases List.mem_append.mp hm with hm | hm
      · rcases List.mem_append.mp hm with hm | hm
        · exact s5 hm
        · exact h a ha hm
      · exact s6 hm
    · exact s3
  · simp

/-! ### epochs -/

/-- After 1858-11-17 the day and fraction in the SBDB file are the epoch, unless it is less than half a millisecond before midnight; then
they are one day late. -/
theorem C161_epoch (mjd : ℚ) (h0 : 0 ≤ mjd) :
    (Int.fract mjd * 86400000 < 86400000 - 1 / 2 → ((sbdbEpoch mjd).1 : ℚ) + (sbdbEpoch mjd).2 = mjd) ∧
    (86400000 - 1 / 2 ≤ Int.fract mjd * 86400000 → ((sbdbEpoch mjd).1 : ℚ) + (sbdbEpoch mjd).2 = mjd + 1) := by
  have hf := Int.floor_add_fract mjd
  have hf0 := Int.fract_nonneg mjd
  have hf1 := Int.fract_lt_one mjd
  have habs : |mjd| = mjd := abs_of_nonneg h0
  have hround : round (mjd * 86400000) = ⌊mjd⌋ * 86400000 + round (Int.fract mjd * 86400000) := by
    have e : mjd * 86400000 = Int.fract mjd * 86400000 + ((⌊mjd⌋ * 86400000 : ℤ) : ℚ) := by
      push_cast
      nth_rewrite 1 [← hf]
      ring
    rw [e, round_add_intCast, add_comm]
  unfold sbdbEpoch
  simp only [habs]
  have hday : ∀ d : ℤ, (d : ℚ) * 86400000 ≤ (round (Int.fract mjd * 86400000) : ℚ) →
      (round (Int.fract mjd * 86400000) : ℚ) < (d + 1) * 86400000 → ⌊(round (mjd * 86400000) : ℚ) / 86400000⌋ = ⌊mjd⌋ + d := by
    intro d h1 h2
    rw [Int.floor_eq_iff, hround, le_div_iff₀ (by norm_num), div_lt_iff₀ (by norm_num)]
    push_cast
    constructor
    · linarith
    · linarith
  have hr := round_eq (Int.fract mjd * 86400000)
  constructor
  · intro h
    have e : ⌊(round (mjd * 86400000) : ℚ) / 86400000⌋ = ⌊mjd⌋ + 0 := by
      apply hday 0
      · push_cast
        have : (0 : ℤ) ≤ round (Int.fract mjd * 86400000) := by
          rw [hr, Int.le_floor]
          push_cast
          linarith
        have : (0 : ℚ) ≤ round (Int.fract mjd * 86400000) := by exact_mod_cast this
        linarith
      · push_cast
        have : round (Int.fract mjd * 86400000) < 86400000 := by
          rw [hr, Int.floor_lt]
          push_cast
          linarith
        have : (round (Int.fract mjd * 86400000) : ℚ) < 86400000 := by exact_mod_cast this
        linarith
    rw [e]
    push_cast
    linarith
  · intro h
    have e : ⌊(round (mjd * 86400000) : ℚ) / 86400000⌋ = ⌊mjd⌋ + 1 := by
      apply hday 1
      · push_cast
        have : (86400000 : ℤ) ≤ round (Int.fract mjd * 86400000) := by
          rw [hr, Int.le_floor]
          push_cast
          linarith
        have : (86400000 : ℚ) ≤ round (Int.fract mjd * 86400000) := by exact_mod_cast this
        linarith
      · push_cast
        have : round (Int.fract mjd * 86400000) < 172800000 := by
          rw [hr, Int.floor_lt]
          push_cast
          linarith
        have : (round (Int.fract mjd * 86400000) : ℚ) < 172800000 := by exact_mod_cast this
        linarith
    rw [e]
    push_cast
    linarith

/-- The file does not always have the epochs of the orbits: not just before midnight, and not before 1858-11-17. -/
theorem C161_epoch_false :
    (¬ ∀ mjd : ℚ, 0 ≤ mjd → ((sbdbEpoch mjd).1 : ℚ) + (sbdbEpoch mjd).2 = mjd) ∧
    ¬ ∀ mjd : ℚ, Int.fract mjd * 86400000 < 86400000 - 1 / 2 → ((sbdbEpoch mjd).1 : ℚ) + (sbdbEpoch mjd).2 = mjd := by
  constructor
  · intro h
    have := h (60000 + 86399999999 / 86400000000) (by norm_num)
    revert this
    decide +kernel
  · intro h
    have := h (-1 / 4) (by decide +kernel)
    revert this
    decide +kernel

end Verif.Openspace.Props

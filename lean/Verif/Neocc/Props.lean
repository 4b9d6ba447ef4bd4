import Verif.Neocc.Lemmas
import Verif.Tri.Props
import Verif.Horizons.Props

/-! # C144, C145: queries of the NEOCC database -/

namespace Verif.Neocc.Props

open Verif Verif.Neocc Verif.Neocc.Spec

/-! ## Helper lemmas -/

theorem gather_iff {α β : Type} {f : α → Except PyErr β} {l : List α} {r : List β} :
    Sched.gather f l = .ok r ↔ List.Forall₂ (fun a b => f a = .ok b) l r := by
  induction l generalizing r with
  | nil => simp [Sched.gather, eq_comm]
  | cons a l ih =>
    simp only [Sched.gather]
    cases hf : f a with
    | error e => simp [List.forall₂_cons_left_iff, hf]
    | ok b =>
      cases hg : Sched.gather f l with
      | error e =>
        simp only [List.forall₂_cons_left_iff, hf, reduceCtorEq, Except.ok.injEq, false_iff, not_exists, not_and]
        rintro b' bs _ hbs rfl
        rw [← ih, hg] at hbs
        cases hbs
      | ok bs =>
        simp only [List.forall₂_cons_left_iff, hf, Except.ok.injEq]
        constructor
        · rintro rfl
          exact ⟨b, bs, rfl, ih.1 hg, rfl⟩
        · rintro ⟨b', bs', rfl, hbs, rfl⟩
          rw [← ih, hg] at hbs
          rw [Except.ok.inj hbs]

theorem readN_iff {K : Type} {num : Str → Option K} {n : Nat} {vs : List Str} {xs : List K} : readN num n vs = .ok xs ↔ First num n vs xs := by
  induction n generalizing vs xs with
  | zero =>
    simp only [readN, Except.ok.injEq, First]
    constructor
    · rintro rfl
      simp
    · rintro ⟨h, _⟩
      exact (List.length_eq_zero_iff.1 h).symm
  | succ n ih =>
    cases vs with
    | nil =>
      simp only [readN, reduceCtorEq, false_iff]
      rintro ⟨_, h⟩
      obtain ⟨v, x, h1, _⟩ := h 0 (by omega)
      simp at h1
    | cons w ws =>
      simp only [readN]
      cases hn : num w with
      | none =>
        simp only [reduceCtorEq, false_iff]
        rintro ⟨_, h⟩
        obtain ⟨v, x, h1, _, h2⟩ := h 0 (by omega)
        simp only [List.getElem?_cons_zero, Option.some.injEq] at h1
        subst h1
        rw [hn] at h2
        cases h2
      | some y =>
        have step : ∀ ys, First num (n + 1) (w :: ws) ys ↔ ∃ zs, ys = y :: zs ∧ First num n ws zs := by
          intro ys
          constructor
          · rintro ⟨h1, h2⟩
            cases ys with
            | nil => simp at h1
            | cons z zs =>
              obtain ⟨v, x, a1, a2, a3⟩ := h2 0 (by omega)
              simp only [List.getElem?_cons_zero, Option.some.injEq] at a1 a2
              subst a1 a2
              rw [hn, Option.some.injEq] at a3
              subst a3
              refine ⟨zs, rfl, by simpa using h1, ?_⟩
              intro i hi
              have := h2 (i + 1) (by omega)
              simpa using this
          · rintro ⟨zs, rfl, h1, h2⟩
            refine ⟨by simp [h1], ?_⟩
            intro i hi
            cases i with
            | zero => exact ⟨w, y, rfl, rfl, hn⟩
            | succ i =>
              have := h2 i (by omega)
              simpa using this
        rw [step]
        cases hr : readN num n ws with
        | error e =>
          simp only [reduceCtorEq, false_iff, not_exists, not_and]
          rintro zs _ hz
          rw [← ih, hr] at hz
          cases hz
        | ok zs =>
          simp only [Except.ok.injEq]
          constructor
          · rintro rfl
            exact ⟨zs, rfl, ih.1 hr⟩
          · rintro ⟨z, rfl, hz⟩
            rw [← ih, hr] at hz
            rw [Except.ok.inj hz]

theorem readAll_iff {K : Type} {num : Str → Option K} {vs : List Str} {xs : List K} : readAll num vs = .ok xs ↔ Every num vs xs := by
  unfold Every
  induction vs generalizing xs with
  | nil => simp [readAll, eq_comm]
  | cons w ws ih =>
    simp only [readAll, List.forall₂_cons_left_iff]
    cases hn : num w with
    | none => simp
    | some y =>
      cases hr : readAll num ws with
      | error e =>
        simp only [reduceCtorEq, false_iff, not_exists, not_and]
        rintro b zs _ hz
        rw [← ih, hr] at hz
        cases hz
      | ok zs =>
        simp only [Except.ok.injEq, Option.some.injEq]
        constructor
        · rintro rfl
          exact ⟨y, zs, rfl, ih.1 hr, rfl⟩
        · rintro ⟨b, z, rfl, hz, rfl⟩
          rw [← ih, hr] at hz
          rw [Except.ok.inj hz]

theorem readEpoch_iff {K : Type} {num : Str → Option K} {vs : List Str} {t : K × Str} : readEpoch num vs = .ok t ↔ Date num vs t := by
  unfold Date
  cases vs with
  | nil => simp [readEpoch]
  | cons w ws =>
    simp only [readEpoch, List.getElem?_cons_zero, Option.some.injEq, exists_eq_left', List.getElem?_cons_succ]
    cases hn : num w with
    | none => simp
    | some y =>
      cases ws with
      | nil => simp
      | cons s ss =>
        simp only [Except.ok.injEq, Option.some.injEq, List.getElem?_cons_zero]
        constructor
        · rintro rfl
          exact ⟨rfl, rfl⟩
        · rintro ⟨h1, h2⟩
          exact Prod.ext h1 h2

theorem triangle_of {K : Type} [Zero K] {v : List K} {m : Option (Nat → Nat → K)} (h : Tri.oefCovariance v = .ok m) : Triangle v m := by
  obtain ⟨h0, h21, hbad⟩ := Tri.Props.C47_oef v
  by_cases hv : v = []
  · rw [h0 hv] at h
    exact Or.inl ⟨hv, (Except.ok.inj h).symm⟩
  · right
    have sym : ∀ full : Nat → Nat → K, (∀ i < 6, ∀ j < 6, i ≤ j → full j i = full i j) → ∀ i < 6, ∀ j < 6, full i j = full j i := by
      intro full hs i hi j hj
      rcases Nat.le_total i j with hij | hij
      · exact (hs i hi j hj hij).symm
      · exact hs j hj i hi hij
    by_cases e1 : v.length = 21
    · obtain ⟨full, a1, a2⟩ := h21 e1
      obtain ⟨full', b1, b2⟩ := (Tri.Props.C47_upper v).2 e1
      rw [a2] at b1
      have := Except.ok.inj b1
      subst this
      rw [a1] at h
      exact ⟨full, (Except.ok.inj h).symm, sym full fun i hi j hj hij => (b2 i hi j hj hij).2,
        Or.inl ⟨e1, fun i hi j hj hij => (b2 i hi j hj hij).1.symm⟩⟩
    · by_cases e2 : v.length = 28
      · obtain ⟨full, a1, a2⟩ := Tri.Props.C47_seven v e2
        rw [a1] at h
        exact ⟨full, (Except.ok.inj h).symm, sym full fun i hi j hj hij => (a2 i hi j hj hij).2,
          Or.inr ⟨e2, fun i hi j hj hij => (a2 i hi j hj hij).1.symm⟩⟩
      · rw [hbad hv e1 e2] at h
        cases h

theorem oef_ok {K : Type} [Zero K] (v : List K) :
    (∃ m, Tri.oefCovariance v = .ok m) ↔ v.length = 0 ∨ v.length = 21 ∨ v.length = 28 := by
  obtain ⟨h0, h21, hbad⟩ := Tri.Props.C47_oef v
  constructor
  · rintro ⟨m, hm⟩
    by_contra hc
    push Not at hc
    rw [hbad (by rintro rfl; exact hc.1 rfl) hc.2.1 hc.2.2] at hm
    cases hm
  · rintro (h | h | h)
    · exact ⟨none, h0 (List.length_eq_zero_iff.1 h)⟩
    · obtain ⟨full, a, _⟩ := h21 h
      exact ⟨_, a⟩
    · obtain ⟨full, a, _⟩ := Tri.Props.C47_seven v h
      exact ⟨_, a⟩

theorem lastOf_iff {α : Type} {d : Document} (h : d.Ok) {k : Str} (hk : k ∈ tags) {f : List Str → Except PyErr α} {o : Option α} :
    lastOf k f d.lines = .ok o ↔ ∃ xs, List.Forall₂ (fun vs x => f vs = .ok x) (d.records k) xs ∧ o = xs.getLast? := by
  rw [lastOf_lines h hk]
  cases hg : Sched.gather f (d.records k) with
  | error e =>
    simp only [keepLast, reduceCtorEq, false_iff, not_exists, not_and]
    intro xs hx
    rw [← gather_iff, hg] at hx
    cases hx
  | ok ys =>
    simp only [keepLast, Except.ok.injEq]
    constructor
    · rintro rfl
      exact ⟨ys, gather_iff.1 hg, rfl⟩
    · rintro ⟨xs, hx, rfl⟩
      rw [← gather_iff, hg] at hx
      rw [Except.ok.inj hx]

theorem matrixOf_iff {K : Type} [Zero K] {d : Document} (h : d.Ok) {k : Str} (hk : k ∈ tags) {num : Str → Option K}
    {m : Option (Nat → Nat → K)} :
    matrixOf k num d.lines = .ok m ↔ ∃ xs, List.Forall₂ (Every num) (d.records k) xs ∧ Tri.oefCovariance xs.flatten = .ok m := by
  unfold matrixOf
  rw [allOf_lines h hk]
  have conv : ∀ xs, List.Forall₂ (Every num) (d.records k) xs ↔ Sched.gather (readAll num) (d.records k) = .ok xs := by
    intro xs
    rw [gather_iff]
    exact ⟨fun h => h.imp fun a b hab => readAll_iff.2 hab, fun h => h.imp fun a b hab => readAll_iff.1 hab⟩
  simp only [conv]
  cases hg : Sched.gather (readAll num) (d.records k) with
  | error e => simp [collect]
  | ok ys => simp [collect]

theorem parse_iff {K : Type} [Zero K] {num : Str → Option K} {text : Str} {o : Oef K} :
    parse num text = .ok o ↔
      lastOf "KEP".toList (readN num 6) (linesOf text) = .ok o.elements ∧
      lastOf "MJD".toList (readEpoch num) (linesOf text) = .ok o.epoch ∧
      lastOf "MAG".toList (readN num 2) (linesOf text) = .ok o.magnitude ∧
      matrixOf "COV".toList num (linesOf text) = .ok o.covariance ∧
      (∃ m, matrixOf "COR".toList num (linesOf text) = .ok m) ∧
      o.header = headerOf (linesOf text) ∧ o.id = objectId (linesOf text) := by
  unfold parse
  simp only
  cases h1 : lastOf "KEP".toList (readN num 6) (linesOf text) with
  | error e => simp
  | ok x1 =>
    cases h2 : lastOf "MJD".toList (readEpoch num) (linesOf text) with
    | error e => simp
    | ok x2 =>
      cases h3 : lastOf "MAG".toList (readN num 2) (linesOf text) with
      | error e => simp
      | ok x3 =>
        cases h4 : matrixOf "COV".toList num (linesOf text) with
        | error e => simp
        | ok x4 =>
          cases h5 : matrixOf "COR".toList num (linesOf text) with
          | error e => simp
          | ok x5 =>
            simp only [Except.ok.injEq]
            constructor
            · rintro rfl
              exact ⟨rfl, rfl, rfl, rfl, ⟨x5, rfl⟩, rfl, rfl⟩
            · rintro ⟨rfl, rfl, rfl, rfl, _, h6, h7⟩
              obtain ⟨_, _, _, _, _, _⟩ := o
              simp only at h6 h7
              rw [h6, h7]

/-! ## C144 -/

/-- C144: what is read from the text of a document: its header, its name, the elements of its last KEP record, the date and time scale of
its last MJD record, the magnitude of its last MAG record, and the symmetric matrix whose upper triangle is written in its COV records,
whatever the number of blanks and the places of comments. -/
theorem C144_document {K : Type} [Zero K] (num : Str → Option K) {d : Document} (h : d.Ok) {tail : Str}
    (ht : ∀ c ∈ tail, Mpc.isSpace c = true) {o : Oef K} (hp : parse num (d.text tail) = .ok o) :
    o.header = d.header.map (fun e => (e.key, e.value)) ∧ o.id = some d.name ∧
    (∃ xs, List.Forall₂ (First num 6) (d.records "KEP".toList) xs ∧ o.elements = xs.getLast?) ∧
    (∃ xs, List.Forall₂ (Date num) (d.records "MJD".toList) xs ∧ o.epoch = xs.getLast?) ∧
    (∃ xs, List.Forall₂ (First num 2) (d.records "MAG".toList) xs ∧ o.magnitude = xs.getLast?) ∧
    (∃ xs, List.Forall₂ (Every num) (d.records "COV".toList) xs ∧ Triangle xs.flatten o.covariance) := by
  rw [parse_iff, linesOf_text h ht] at hp
  obtain ⟨h1, h2, h3, h4, h5, h6, h7⟩ := hp
  rw [lastOf_iff h (by decide)] at h1 h2 h3
  rw [matrixOf_iff h (by decide)] at h4
  refine ⟨by rw [h6, headerOf_lines h], by rw [h7, objectId_lines h], ?_, ?_, ?_, ?_⟩
  · obtain ⟨xs, a, b⟩ := h1
    exact ⟨xs, a.imp fun _ _ => readN_iff.1, b⟩
  · obtain ⟨xs, a, b⟩ := h2
    exact ⟨xs, a.imp fun _ _ => readEpoch_iff.1, b⟩
  · obtain ⟨xs, a, b⟩ := h3
    exact ⟨xs, a.imp fun _ _ => readN_iff.1, b⟩
  · obtain ⟨xs, a, b⟩ := h4
    exact ⟨xs, a, triangle_of b⟩

/-- C144: the text of a document is read exactly if every record has its numbers, and the COV and COR records have 21 or 28 numbers each, or
none. -/
theorem C144_accepts {K : Type} [Zero K] (num : Str → Option K) {d : Document} (h : d.Ok) {tail : Str}
    (ht : ∀ c ∈ tail, Mpc.isSpace c = true) :
    (∃ o, parse num (d.text tail) = .ok o) ↔
      (∃ xs, List.Forall₂ (First num 6) (d.records "KEP".toList) xs) ∧ (∃ xs, List.Forall₂ (Date num) (d.records "MJD".toList) xs) ∧
      (∃ xs, List.Forall₂ (First num 2) (d.records "MAG".toList) xs) ∧
      (∃ xs, List.Forall₂ (Every num) (d.records "COV".toList) xs ∧
        (xs.flatten.length = 0 ∨ xs.flatten.length = 21 ∨ xs.flatten.length = 28)) ∧
      (∃ xs, List.Forall₂ (Every num) (d.records "COR".toList) xs ∧
        (xs.flatten.length = 0 ∨ xs.flatten.length = 21 ∨ xs.flatten.length = 28)) := by
  constructor
  · rintro ⟨o, hp⟩
    have hp' := hp
    rw [parse_iff, linesOf_text h ht] at hp'
    obtain ⟨_, _, _, h4, ⟨m, h5⟩, _, _⟩ := hp'
    obtain ⟨_, _, ⟨x1, a1, _⟩, ⟨x2, a2, _⟩, ⟨x3, a3, _⟩, _⟩ := C144_document num h ht hp
    obtain ⟨x4, a4, b4⟩ := (matrixOf_iff h (by decide)).1 h4
    obtain ⟨x5, a5, b5⟩ := (matrixOf_iff h (by decide)).1 h5
    exact ⟨⟨x1, a1⟩, ⟨x2, a2⟩, ⟨x3, a3⟩, ⟨x4, a4, (oef_ok _).1 ⟨_, b4⟩⟩, ⟨x5, a5, (oef_ok _).1 ⟨_, b5⟩⟩⟩
  · rintro ⟨⟨x1, a1⟩, ⟨x2, a2⟩, ⟨x3, a3⟩, ⟨x4, a4, b4⟩, ⟨x5, a5, b5⟩⟩
    obtain ⟨m4, c4⟩ := (oef_ok _).2 b4
    obtain ⟨m5, c5⟩ := (oef_ok _).2 b5
    refine ⟨⟨headerOf d.lines, objectId d.lines, x1.getLast?, x2.getLast?, x3.getLast?, m4⟩, ?_⟩
    rw [parse_iff, linesOf_text h ht]
    refine ⟨(lastOf_iff h (by decide)).2 ⟨x1, a1.imp fun _ _ => readN_iff.2, rfl⟩,
      (lastOf_iff h (by decide)).2 ⟨x2, a2.imp fun _ _ => readEpoch_iff.2, rfl⟩,
      (lastOf_iff h (by decide)).2 ⟨x3, a3.imp fun _ _ => readN_iff.2, rfl⟩,
      (matrixOf_iff h (by decide)).2 ⟨x4, a4, c4⟩, ⟨m5, (matrixOf_iff h (by decide)).2 ⟨x5, a5, c5⟩⟩, rfl, rfl⟩

/-- A document for the examples: two header entries, a comment, all records, the triangle in three records of seven numbers. -/
def sample : Document :=
  ⟨[⟨"format".toList, "OEF2.0".toList, true, "  file format".toList, (2, 1, 7)⟩,
    ⟨"refsys".toList, "ECLM J2000".toList, false, "  default reference system".toList, (2, 1, 5)⟩],
   "433".toList,
   [.comment " Keplerian elements".toList,
    .record 0 "KEP".toList [(1, "1".toList), (1, "2".toList), (0, "3".toList), (0, "4".toList), (0, "5".toList), (0, "6".toList)],
    .record 0 "MJD".toList [(4, "7".toList), (0, "TDT".toList)],
    .record 0 "MAG".toList [(1, "8".toList), (1, "9".toList)],
    .record 0 "COV".toList (List.replicate 7 (1, "1".toList)),
    .record 0 "COV".toList (List.replicate 7 (1, "2".toList)),
    .record 0 "COV".toList (List.replicate 7 (1, "3".toList))]⟩

/-- One digit. -/
def digit (s : Str) : Option ℤ :=
  match s with
  | [c] => if c.isDigit then some (c.toNat - 48) else none
  | _ => none

example : sample.text "\n".toList = ("format  = 'OEF2.0'       !  file format\nrefsys  = ECLM J2000     !  default reference system\n" ++
    "END_OF_HEADER\n433\n! Keplerian elements\n KEP  1  2 3 4 5 6\n MJD     7 TDT\n MAG  8  9\n" ++
    " COV  1  1  1  1  1  1  1\n COV  2  2  2  2  2  2  2\n COV  3  3  3  3  3  3  3\n").toList := by decide +kernel

example : sample.Ok := by
  have trim : ∀ s : Str, Ades.Trim s ↔ (s.head?.all fun c => !Mpc.isSpace c) = true ∧ (s.getLast?.all fun c => !Mpc.isSpace c) = true := by
    intro s
    unfold Ades.Trim
    constructor <;> rintro ⟨h1, h2⟩ <;> constructor
    · cases h : s.head? <;> simp_all
    · cases h : s.getLast? <;> simp_all
    · intro c hc; simp_all
    · intro c hc; simp_all
  refine ⟨?_, ?_, ?_⟩
  · intro e he
    simp only [sample, List.mem_cons, List.not_mem_nil, or_false] at he
    rcases he with rfl | rfl
    · exact ⟨⟨"format".toList, by decide, by decide⟩, by rw [trim]; decide +kernel, by rw [trim]; decide +kernel, by rw [trim]; decide +kernel⟩
    · exact ⟨⟨"refsys".toList, by decide, by decide⟩, by rw [trim]; decide +kernel, by rw [trim]; decide +kernel, by rw [trim]; decide +kernel⟩
  · rw [trim]
    decide +kernel
  · intro l hl
    simp only [sample, List.mem_cons, List.not_mem_nil, or_false] at hl
    rcases hl with rfl | rfl | rfl | rfl | rfl | rfl | rfl
    · change Ades.Trim _ ∧ _
      rw [trim]
      decide +kernel
    all_goals
      change Word _ ∧ _ ∧ (∀ v ∈ (_ : List (Nat × Str)), Word v.2) ∧ _
      unfold Word
      decide +kernel

example : (match parse digit (sample.text "\n".toList) with
    | .ok o => decide (o.id = some "433".toList ∧ o.elements = some [1, 2, 3, 4, 5, 6] ∧ o.epoch = some (7, "TDT".toList) ∧
        o.magnitude = some [8, 9] ∧ (o.covariance.map fun m => (m 0 5, m 5 0, m 1 1, m 5 5)) = some (1, 1, 1, 3))
    | _ => false) = true := by decide +kernel

/-! ## C145 -/

/-- What becomes of one answer: no row if it has no date; otherwise the date must be TDT, the reference system ECLM J2000, and there must be
a name, elements and a covariance matrix. -/
inductive Answer {K Y : Type} [Zero K] (num : Str → Option K) (make : Record K → Except PyErr Y) (text : Str) : Option Y → Prop
  | nothing {o : Oef K} : parse num text = .ok o → o.epoch = none → Answer num make text none
  | row {o : Oef K} {t : K} {id : Str} {el : List K} {cov : Nat → Nat → K} {y : Y} :
      parse num text = .ok o → o.epoch = some (t, "TDT".toList) → lookup "refsys".toList o.header = some "ECLM J2000".toList →
      o.id = some id → o.elements = some el → o.covariance = some cov → make ⟨id, el, t, cov, o.magnitude⟩ = .ok y →
      Answer num make text (some y)

theorem recordOf_iff {K : Type} {o : Oef K} {r : Option (Record K)} :
    recordOf o = .ok r ↔ (o.epoch = none ∧ r = none) ∨
      ∃ t id el cov, o.epoch = some (t, "TDT".toList) ∧ lookup "refsys".toList o.header = some "ECLM J2000".toList ∧
        o.id = some id ∧ o.elements = some el ∧ o.covariance = some cov ∧ r = some ⟨id, el, t, cov, o.magnitude⟩ := by
  unfold recordOf
  cases he : o.epoch with
  | none => simp [eq_comm]
  | some p =>
    obtain ⟨t, scale⟩ := p
    simp only [reduceCtorEq, false_and, false_or, Option.some.injEq, Prod.mk.injEq]
    by_cases hs : scale = "TDT".toList
    · rw [if_neg (not_not.2 hs)]
      cases hl : lookup "refsys".toList o.header with
      | none => simp
      | some ref =>
        simp only [Option.some.injEq]
        by_cases hr : ref = "ECLM J2000".toList
        · rw [if_neg (not_not.2 hr)]
          cases h1 : o.id with
          | none => simp
          | some id =>
            cases h2 : o.elements with
            | none => simp
            | some el =>
              cases h3 : o.covariance with
              | none => simp
              | some cov =>
                simp only [Except.ok.injEq, Option.some.injEq]
                constructor
                · rintro rfl
                  exact ⟨t, id, el, cov, ⟨rfl, hs⟩, hr, rfl, rfl, rfl, rfl⟩
                · rintro ⟨t', id', el', cov', ⟨rfl, _⟩, _, rfl, rfl, rfl, rfl⟩
                  rfl
        · rw [if_pos hr]
          simp only [reduceCtorEq, false_iff]
          rintro ⟨_, _, _, _, _, h, _⟩
          exact hr h
    · rw [if_pos hs]
      simp only [reduceCtorEq, false_iff]
      rintro ⟨_, _, _, _, ⟨_, h⟩, _⟩
      exact hs h

theorem one_iff {K Y : Type} [Zero K] {num : Str → Option K} {make : Record K → Except PyErr Y} {server : Str → Except PyErr Str}
    {present : Bool} {object : Str} {r : Option Y} :
    one num make server present object = .ok r ↔ ∃ text, server (fileName present object) = .ok text ∧ Answer num make text r := by
  unfold one
  cases hs : server (fileName present object) with
  | error e => simp
  | ok text =>
    simp only [Except.ok.injEq, exists_eq_left']
    cases hp : parse num text with
    | error e =>
      simp only [reduceCtorEq, false_iff]
      rintro (⟨h, _⟩ | ⟨h, _⟩) <;> (rw [hp] at h; cases h)
    | ok o =>
      simp only
      cases hr : recordOf o with
      | error e =>
        simp only [reduceCtorEq, false_iff]
        rintro (⟨h1, h2⟩ | ⟨h1, h2, h3, h4, h5, h6, h7⟩)
        · rw [hp] at h1
          cases h1
          rw [recordOf_iff.2 (Or.inl ⟨h2, rfl⟩)] at hr
          cases hr
        · rw [hp] at h1
          cases h1
          rw [recordOf_iff.2 (Or.inr ⟨_, _, _, _, h2, h3, h4, h5, h6, rfl⟩)] at hr
          cases hr
      | ok w =>
        have hr' := recordOf_iff.1 hr
        rcases hr' with ⟨h1, rfl⟩ | ⟨t, id, el, cov, h1, h2, h3, h4, h5, rfl⟩
        · simp only [Except.ok.injEq]
          constructor
          · rintro rfl
            exact .nothing hp h1
          · rintro (⟨k1, k2⟩ | ⟨k1, k2, _⟩)
            · rfl
            · rw [hp] at k1
              cases k1
              rw [h1] at k2
              cases k2
        · simp only
          cases hm : make ⟨id, el, t, cov, o.magnitude⟩ with
          | error e =>
            simp only [reduceCtorEq, false_iff]
            rintro (⟨k1, k2⟩ | ⟨k1, k2, k3, k4, k5, k6, k7⟩)
            · rw [hp] at k1
              cases k1
              rw [h1] at k2
              cases k2
            · rw [hp] at k1
              cases k1
              rw [h1] at k2
              rw [h3] at k4
              rw [h4] at k5
              rw [h5] at k6
              cases k2; cases k4; cases k5; cases k6
              rw [hm] at k7
              cases k7
          | ok y =>
            simp only [Except.ok.injEq]
            constructor
            · rintro rfl
              exact .row hp h1 h2 h3 h4 h5 hm
            · rintro (⟨k1, k2⟩ | ⟨k1, k2, k3, k4, k5, k6, k7⟩)
              · rw [hp] at k1
                cases k1
                rw [h1] at k2
                cases k2
              · rw [hp] at k1
                cases k1
                rw [h1] at k2
                rw [h3] at k4
                rw [h4] at k5
                rw [h5] at k6
                cases k2; cases k4; cases k5; cases k6
                rw [hm] at k7
                cases k7
                rfl

theorem all_iff {K Y : Type} [Zero K] {num : Str → Option K} {make : Record K → Except PyErr Y} {server : Str → Except PyErr Str}
    {present : Bool} {objects : List Str} {ys : List Y} :
    all num make server present objects = .ok ys ↔
      ∃ rs, List.Forall₂ (fun o r => one num make server present o = .ok r) objects rs ∧ ys = rs.reduceOption := by
  induction objects generalizing ys with
  | nil => simp [all, eq_comm, List.reduceOption]
  | cons o os ih =>
    simp only [all, List.forall₂_cons_left_iff]
    cases h1 : one num make server present o with
    | error e => simp
    | ok y =>
      cases h2 : all num make server present os with
      | error e =>
        simp only [reduceCtorEq, Except.ok.injEq, false_iff, not_exists, not_and]
        rintro rs ⟨r, rs', rfl, h, rfl⟩ _
        have := ih.2 ⟨rs', h, rfl⟩
        rw [h2] at this
        cases this
      | ok zs =>
        obtain ⟨rs, a, b⟩ := ih.1 h2
        simp only [Except.ok.injEq]
        have red : ∀ (y : Option Y) (l : List (Option Y)), (y :: l).reduceOption = y.toList ++ l.reduceOption := by
          intro y l
          cases y <;> rfl
        constructor
        · rintro rfl
          exact ⟨y :: rs, ⟨y, rs, rfl, a, rfl⟩, by rw [b, red]⟩
        · rintro ⟨_, ⟨r, rs', rfl, h, rfl⟩, rfl⟩
          have := ih.2 ⟨rs', h, rfl⟩
          rw [h2] at this
          rw [Except.ok.inj this, red]

theorem all_error {K Y : Type} [Zero K] {num : Str → Option K} {make : Record K → Except PyErr Y} {server : Str → Except PyErr Str}
    {present : Bool} {objects : List Str} {e : PyErr} :
    all num make server present objects = .error e ↔
      ∃ before o after, objects = before ++ o :: after ∧ (∀ b ∈ before, ∃ r, one num make server present b = .ok r) ∧
        one num make server present o = .error e := by
  induction objects with
  | nil => simp [all]
  | cons o os ih =>
    simp only [all]
    cases h1 : one num make server present o with
    | error x =>
      simp only [Except.error.injEq]
      constructor
      · rintro rfl
        exact ⟨[], o, os, rfl, by simp, h1⟩
      · rintro ⟨before, o', after, h, hb, ho⟩
        cases before with
        | nil =>
          cases h
          rw [h1] at ho
          exact Except.error.inj ho
        | cons b bs =>
          cases h
          obtain ⟨r, hr⟩ := hb o (by simp)
          rw [h1] at hr
          cases hr
    | ok y =>
      have key : all num make server present os = .error e ↔
          ∃ before o' after, o :: os = before ++ o' :: after ∧ (∀ b ∈ before, ∃ r, one num make server present b = .ok r) ∧
            one num make server present o' = .error e := by
        rw [ih]
        constructor
        · rintro ⟨before, o', after, h, hb, ho⟩
          refine ⟨o :: before, o', after, by rw [h]; rfl, ?_, ho⟩
          intro b hb'
          rcases List.mem_cons.1 hb' with rfl | hb'
          · exact ⟨y, h1⟩
          · exact hb b hb'
        · rintro ⟨before, o', after, h, hb, ho⟩
          cases before with
          | nil =>
            cases h
            rw [h1] at ho
            cases ho
          | cons b bs =>
            cases h
            exact ⟨bs, o', after, rfl, fun x hx => hb x (List.mem_cons_of_mem _ hx), ho⟩
      rw [← key]
      cases h2 : all num make server present os <;> simp

/-- The documented names of the epochs, and the digit they ask for. -/
def epochDigit (epoch : Str) : Option Str :=
  if epoch = "middle".toList then some "0".toList else if epoch = "present-day".toList then some "1".toList else none

theorem query_eq {K Y : Type} [Zero K] (num : Str → Option K) (make : Record K → Except PyErr Y) (server : Str → Except PyErr Str)
    (epoch : Str) (objects : List Str) {g : Str} (hg : epochDigit epoch = some g) :
    ∃ present, query num make server false epoch objects = all num make server present objects ∧
      ∀ o, fileName present o = o.filter (· ≠ ' ') ++ ".ke".toList ++ g := by
  unfold epochDigit at hg
  unfold query
  rw [if_neg (by decide)]
  split at hg
  · rename_i h
    refine ⟨false, by rw [if_pos h], ?_⟩
    rw [← Option.some.inj hg]
    intro o
    rfl
  · rename_i h
    split at hg
    · rename_i h'
      refine ⟨true, by rw [if_neg h, if_pos h'], ?_⟩
      rw [← Option.some.inj hg]
      intro o
      rfl
    · cases hg

/-- C145: the rows are those of the answers to the requests `<name without blanks>.ke0` (or `.ke1`), in the order of the objects, one for
every answer that has a date; every such answer is in the TDT scale and in the system ECLM J2000 and has a name, elements and covariances. -/
theorem C145_rows {K Y : Type} [Zero K] (num : Str → Option K) (make : Record K → Except PyErr Y) (server : Str → Except PyErr Str)
    (equinoctial : Bool) (epoch : Str) (objects : List Str) (ys : List Y) :
    query num make server equinoctial epoch objects = .ok ys ↔
      equinoctial = false ∧ ∃ g, epochDigit epoch = some g ∧ ∃ rs,
        List.Forall₂ (fun o r => ∃ text, server (o.filter (· ≠ ' ') ++ ".ke".toList ++ g) = .ok text ∧ Answer num make text r) objects rs ∧
        ys = rs.reduceOption := by
  cases equinoctial with
  | true => simp [query]
  | false =>
    cases hg : epochDigit epoch with
    | none =>
      unfold epochDigit at hg
      unfold query
      split at hg
      · cases hg
      · split at hg
        · cases hg
        · rename_i h1 h2
          rw [if_neg (by decide), if_neg h1, if_neg h2]
          simp
    | some g =>
      obtain ⟨present, h1, h2⟩ := query_eq num make server epoch objects hg
      rw [h1, all_iff]
      simp only [true_and, Option.some.injEq, exists_eq_left', one_iff, h2]

/-- Why an answer is refused: it cannot be read, its date is not in the TDT scale, its reference system is not given or is not ECLM J2000,
the name, the elements or the covariances are missing, or no orbit can be made of it. -/
inductive Refused {K Y : Type} [Zero K] (num : Str → Option K) (make : Record K → Except PyErr Y) (text : Str) : PyErr → Prop
  | unreadable {e : PyErr} : parse num text = .error e → Refused num make text e
  | scale {o : Oef K} {t : K} {s : Str} : parse num text = .ok o → o.epoch = some (t, s) → s ≠ "TDT".toList →
      Refused num make text .valueError
  | noSystem {o : Oef K} {t : K} : parse num text = .ok o → o.epoch = some (t, "TDT".toList) → lookup "refsys".toList o.header = none →
      Refused num make text .keyError
  | system {o : Oef K} {t : K} {s : Str} : parse num text = .ok o → o.epoch = some (t, "TDT".toList) →
      lookup "refsys".toList o.header = some s → s ≠ "ECLM J2000".toList → Refused num make text .valueError
  | missing {o : Oef K} {t : K} : parse num text = .ok o → o.epoch = some (t, "TDT".toList) →
      lookup "refsys".toList o.header = some "ECLM J2000".toList → o.id = none ∨ o.elements = none ∨ o.covariance = none →
      Refused num make text .keyError
  | construction {o : Oef K} {t : K} {id : Str} {el : List K} {cov : Nat → Nat → K} {e : PyErr} :
      parse num text = .ok o → o.epoch = some (t, "TDT".toList) → lookup "refsys".toList o.header = some "ECLM J2000".toList →
      o.id = some id → o.elements = some el → o.covariance = some cov → make ⟨id, el, t, cov, o.magnitude⟩ = .error e →
      Refused num make text e

theorem one_error {K Y : Type} [Zero K] {num : Str → Option K} {make : Record K → Except PyErr Y} {server : Str → Except PyErr Str}
    {present : Bool} {object : Str} {e : PyErr} :
    one num make server present object = .error e ↔ server (fileName present object) = .error e ∨
      ∃ text, server (fileName present object) = .ok text ∧ Refused num make text e := by
  constructor
  · intro h
    unfold one at h
    cases hs : server (fileName present object) with
    | error x =>
      rw [hs] at h
      cases h
      exact Or.inl rfl
    | ok text =>
      rw [hs] at h
      refine Or.inr ⟨text, rfl, ?_⟩
      simp only at h
      cases hp : parse num text with
      | error x =>
        rw [hp] at h
        cases h
        exact .unreadable hp
      | ok o =>
        rw [hp] at h
        simp only [recordOf] at h
        cases he : o.epoch with
        | none =>
          rw [he] at h
          cases h
        | some q =>
          obtain ⟨t, scale⟩ := q
          rw [he] at h
          simp only at h
          by_cases hc : scale = "TDT".toList
          · subst hc
            rw [if_neg (not_not.2 rfl)] at h
            cases hl : lookup "refsys".toList o.header with
            | none =>
              rw [hl] at h
              cases h
              exact .noSystem hp he hl
            | some s =>
              rw [hl] at h
              simp only at h
              by_cases hr : s = "ECLM J2000".toList
              · subst hr
                rw [if_neg (not_not.2 rfl)] at h
                cases k1 : o.id with
                | none =>
                  rw [k1] at h
                  cases h
                  exact .missing hp he hl (Or.inl k1)
                | some id =>
                  cases k2 : o.elements with
                  | none =>
                    rw [k1, k2] at h
                    cases h
                    exact .missing hp he hl (Or.inr (Or.inl k2))
                  | some el =>
                    cases k3 : o.covariance with
                    | none =>
                      rw [k1, k2, k3] at h
                      cases h
                      exact .missing hp he hl (Or.inr (Or.inr k3))
                    | some cov =>
                      rw [k1, k2, k3] at h
                      simp only at h
                      cases k4 : make ⟨id, el, t, cov, o.magnitude⟩ with
                      | error x =>
                        rw [k4] at h
                        cases h
                        exact .construction hp he hl k1 k2 k3 k4
                      | ok y =>
                        rw [k4] at h
                        cases h
              · rw [if_pos hr] at h
                cases h
                exact .system hp he hl hr
          · rw [if_pos hc] at h
            cases h
            exact .scale hp he hc
  · rintro (h | ⟨text, hs, h⟩)
    · unfold one
      rw [h]
    · unfold one
      rw [hs]
      simp only
      cases h with
      | unreadable h => rw [h]
      | scale h1 h2 h3 =>
        rw [h1]
        simp only [recordOf, h2]
        rw [if_pos h3]
      | noSystem h1 h2 h3 =>
        rw [h1]
        simp only [recordOf, h2]
        rw [if_neg (not_not.2 rfl), h3]
      | system h1 h2 h3 h4 =>
        rw [h1]
        simp only [recordOf, h2]
        rw [if_neg (not_not.2 rfl), h3]
        simp only
        rw [if_pos h4]
      | @missing o t h1 h2 h3 h4 =>
        rw [h1]
        simp only [recordOf, h2]
        rw [if_neg (not_not.2 rfl), h3]
        simp only
        rw [if_neg (not_not.2 rfl)]
        cases k1 : o.id with
        | none => rfl
        | some id =>
          cases k2 : o.elements with
          | none => rfl
          | some el =>
            cases k3 : o.covariance with
            | none => rfl
            | some cov => simp [k1, k2, k3] at h4
      | construction h1 h2 h3 h4 h5 h6 h7 =>
        rw [h1]
        simp only [recordOf, h2]
        rw [if_neg (not_not.2 rfl), h3]
        simp only
        rw [if_neg (not_not.2 rfl), h4, h5, h6]
        simp only
        rw [h7]

/-- C145: an error ends the query: the first object whose request fails or whose answer is refused decides the error, and no rows are
returned. -/
theorem C145_error {K Y : Type} [Zero K] (num : Str → Option K) (make : Record K → Except PyErr Y) (server : Str → Except PyErr Str)
    (epoch : Str) (objects : List Str) {g : Str} (hg : epochDigit epoch = some g) (e : PyErr) :
    query num make server false epoch objects = .error e ↔
      ∃ before o after, objects = before ++ o :: after ∧
        (∀ b ∈ before, ∃ r text, server (b.filter (· ≠ ' ') ++ ".ke".toList ++ g) = .ok text ∧ Answer num make text r) ∧
        (server (o.filter (· ≠ ' ') ++ ".ke".toList ++ g) = .error e ∨
         ∃ text, server (o.filter (· ≠ ' ') ++ ".ke".toList ++ g) = .ok text ∧ Refused num make text e) := by
  obtain ⟨present, h1, h2⟩ := query_eq num make server epoch objects hg
  rw [h1, all_error]
  simp only [one_iff, one_error, h2]

/-- C145: equinoctial elements and unknown epochs are refused before anything is asked. -/
theorem C145_arguments {K Y : Type} [Zero K] (num : Str → Option K) (make : Record K → Except PyErr Y) (server : Str → Except PyErr Str)
    (epoch : Str) (objects : List Str) :
    query num make server true epoch objects = .error .runtimeError ∧
    (epochDigit epoch = none → query num make server false epoch objects = .error .valueError) := by
  refine ⟨rfl, ?_⟩
  intro hg
  unfold epochDigit at hg
  unfold query
  split at hg
  · cases hg
  · split at hg
    · cases hg
    · rename_i h1 h2
      rw [if_neg (by decide), if_neg h1, if_neg h2]

/-- C145: that there is a row for every object is not true: an empty answer is passed over. -/
theorem C145_missing_false : ¬ ∀ (server : Str → Except PyErr Str) (objects : List Str) (ys : List Str),
    query digit (fun r => .ok r.id) server false "middle".toList objects = .ok ys → ys.length = objects.length := by
  intro h
  have key : query digit (fun r => .ok r.id)
      (fun f => if f = "433.ke0".toList then .ok [] else .ok (sample.text [])) false "middle".toList ["433".toList, "434".toList]
      = .ok ["433".toList] := Horizons.Props.ok_of_check _ _ (by decide +kernel)
  have := h _ _ _ key
  revert this
  decide

end Verif.Neocc.Props

import Verif.Openspace.Kepler
import Verif.Openspace.Props

/-! # C191: the files for many orbits -/

namespace Verif.Openspace.KeplerProps

open Verif Mpc Openspace Openspace.Props

variable {K : Type}

/-! ## Specification -/

/-- Options that are accepted. -/
def Allowed (op : KeplerOptions K) : Prop :=
  (∀ r, op.rendering = some r → r ∈ ["Trail".toList, "Point".toList, "PointsTrails".toList]) ∧
  (∀ r, op.renderBinMode = some r → r ∈ ["Background".toList, "Opaque".toList, "PreDeferredTransparent".toList, "Overlay".toList,
    "PostDeferredTransparent".toList, "Sticker".toList])

/-- The attributes that an option gives, if it is given. -/
def given {A : Type} (f : A → Val K) (o : Option A) : Option (Val K) → Prop := fun v =>
  match o with
  | none => v = some .none
  | some a => v = some (f a)

/-- A column of a table. -/
def column (t : List (Str × List (Cell K))) (name : Str) : Option (List (Cell K)) := (t.find? fun c => decide (c.1 = name)).map Prod.snd

/-! ## Auxiliary -/

theorem baseName_spec (p : Str) : ∃ dir, p = dir ++ baseName p ∧ '/' ∉ baseName p ∧ (dir = [] ∨ dir.getLast? = some '/') := by
  refine ⟨(p.reverse.dropWhile fun c => decide (c ≠ '/')).reverse, ?_, ?_, ?_⟩
  · unfold baseName
    rw [← List.reverse_append, List.takeWhile_append_dropWhile, List.reverse_reverse]
  · unfold baseName
    rw [List.mem_reverse]
    intro h
    have := List.all_eq_true.mp (List.all_takeWhile (p := fun c => decide (c ≠ '/')) (l := p.reverse)) _ h
    simp at this
  · cases hd : p.reverse.dropWhile fun c => decide (c ≠ '/') with
    | nil => left; rfl
    | cons c l =>
      right
      rw [List.getLast?_reverse, List.head?_cons]
      have h := List.head_dropWhile_not (fun c => decide (c ≠ '/')) (l := p.reverse) (by rw [hd]; simp)
      have hc : (List.dropWhile (fun c => decide (c ≠ '/')) p.reverse).head (by rw [hd]; simp) = c := by simp only [hd, List.head_cons]
      rw [hc] at h
      simpa using h

theorem baseName_append (dir b : Str) (hb : '/' ∉ b) (hd : dir = [] ∨ dir.getLast? = some '/') : baseName (dir ++ b) = b := by
  unfold baseName
  rw [List.reverse_append, List.takeWhile_append_of_pos]
  · have : dir.reverse.takeWhile (fun c => decide (c ≠ '/')) = [] := by
      rcases hd with rfl | hd
      · rfl
      · rw [← List.head?_reverse] at hd
        cases hr : dir.reverse with
        | nil => rfl
        | cons c l =>
          rw [hr, List.head?_cons, Option.some.injEq] at hd
          rw [List.takeWhile_cons, hd]
          simp
    rw [this, List.append_nil, List.reverse_reverse]
  · intro c hc
    rw [List.mem_reverse] at hc
    have : c ≠ '/' := fun h => hb (h ▸ hc)
    simpa using this

/-- Both files are joined to the directory in the same way. -/
theorem joinPath_prefix (a s : Str) : ∃ pre, ∀ e : Str, e.head? ≠ some '/' → joinPath a (s ++ e) = pre ++ e ∧
    ∃ q, pre = q ++ s := by
  by_cases hs : s.head? = some '/'
  · refine ⟨s, fun e _ => ⟨?_, [], rfl⟩⟩
    have : (s ++ e).head? = some '/' := by
      cases s with
      | nil => simp at hs
      | cons c l => simpa using hs
    unfold joinPath
    rw [if_pos this]
  · have hne : ∀ e : Str, e.head? ≠ some '/' → (s ++ e).head? ≠ some '/' := by
      intro e he
      cases s with
      | nil => simpa using he
      | cons c l => simpa using hs
    by_cases ha : a = [] ∨ a.getLast? = some '/'
    · refine ⟨a ++ s, fun e he => ⟨?_, a, rfl⟩⟩
      unfold joinPath
      rw [if_neg (hne e he), if_pos ha, List.append_assoc]
    · refine ⟨a ++ '/' :: s, fun e he => ⟨?_, a ++ ['/'], by simp⟩⟩
      unfold joinPath
      rw [if_neg (hne e he), if_neg ha]
      simp

theorem any_iff (o : Option Str) (l : List Str) : (o.any fun r => decide (r ∉ l)) = true ↔ ¬ ∀ r, o = some r → r ∈ l := by
  cases o with
  | none => simp
  | some r => simp

theorem orbitalKepler_ok {shw : K → Str} {epoch : Orbit K → Str} {csv : List (Str × List (Cell K)) → Str} {op : KeplerOptions K}
    {orbits : List (Orbit K)} {fs : Files} (h : Allowed op) :
    orbitalKepler shw epoch csv op orbits fs =
      ((fs.write (joinPath op.outDir (safe op.identifier ++ ".csv".toList)) (csv (sbdbColumns epoch orbits))).write
        (joinPath op.outDir (safe op.identifier ++ ".asset".toList))
        ("local Object = ".toList ++ text shw 4 (keplerAsset op (joinPath op.outDir (safe op.identifier ++ ".csv".toList))) ++ ['\n', '\n'] ++
          initText ["Object".toList]), .ok ()) := by
  unfold orbitalKepler
  dsimp only
  rw [if_neg (fun hh => (any_iff _ keplerRenderings).mp hh h.1), if_neg (fun hh => (any_iff _ renderBinModes).mp hh h.2)]

/-- The table is where it is said to be. -/
theorem table_written {shw : K → Str} {epoch : Orbit K → Str} {csv : List (Str × List (Cell K)) → Str} {op : KeplerOptions K}
    {orbits : List (Orbit K)} {fs : Files} (h : Allowed op) (path : Str)
    (hp : joinPath op.outDir (safe op.identifier ++ ".csv".toList) = path)
    (hn : joinPath op.outDir (safe op.identifier ++ ".asset".toList) ≠ path) :
    (orbitalKepler shw epoch csv op orbits fs).1 path = some (csv (sbdbColumns epoch orbits)) := by
  rw [orbitalKepler_ok h, hp]
  simp only [Files.write]
  rw [if_neg hn.symm]
  simp

/-! ## The properties -/

/-- C191: A rendering or a bin mode that is not known is a ValueError, and no file is touched; nothing else is refused. -/
theorem C191_errors (shw : K → Str) (epoch : Orbit K → Str) (csv : List (Str × List (Cell K)) → Str) (op : KeplerOptions K)
    (orbits : List (Orbit K)) (fs : Files) :
    (¬ Allowed op → orbitalKepler shw epoch csv op orbits fs = (fs, .error (.py .valueError))) ∧
    (Allowed op → (orbitalKepler shw epoch csv op orbits fs).2 = .ok ()) := by
  refine ⟨fun h => ?_, fun h => by rw [orbitalKepler_ok h]⟩
  unfold orbitalKepler
  by_cases h1 : ∀ r, op.rendering = some r → r ∈ keplerRenderings
  · have h2 : ¬ ∀ r, op.renderBinMode = some r → r ∈ renderBinModes := fun h2 => h ⟨h1, h2⟩
    simp only
    rw [if_neg (fun hh => (any_iff _ _).mp hh h1), if_pos ((any_iff _ _).mpr h2)]
  · simp only
    rw [if_pos ((any_iff _ _).mpr h1)]

/-- C191: Two files are written, in one directory, and no others: the asset, and the table with the extension csv; the resource of the asset
is the name of the table within that directory. Their paths are the identifier with underscores for blanks and the extension. The asset
declares one node and adds it when initialised. -/
theorem C191_files (shw : K → Str) (epoch : Orbit K → Str) (csv : List (Str × List (Cell K)) → Str) {op : KeplerOptions K}
    (orbits : List (Orbit K)) (fs : Files) (h : Allowed op) :
    ∃ (dir name table : Str) (asset : Val K), (dir = [] ∨ dir.getLast? = some '/') ∧ '/' ∉ name ∧ '/' ∉ table ∧ name ≠ table ∧
      (∃ q, dir ++ name = q ++ (op.identifier.map fun c => if c = ' ' then '_' else c) ++ ".asset".toList ∧
        dir ++ table = q ++ (op.identifier.map fun c => if c = ' ' then '_' else c) ++ ".csv".toList) ∧
      atPath asset ["renderable".toList, "path".toList] = some (.resource table) ∧
      (orbitalKepler shw epoch csv op orbits fs).1 (dir ++ name) =
        some ("local Object = ".toList ++ text shw 4 asset ++ ['\n', '\n'] ++ initText ["Object".toList]) ∧
      (orbitalKepler shw epoch csv op orbits fs).1 (dir ++ table) = some (csv (sbdbColumns epoch orbits)) ∧
      ∀ p, p ≠ dir ++ name → p ≠ dir ++ table → (orbitalKepler shw epoch csv op orbits fs).1 p = fs p := by
  obtain ⟨pre, hpre⟩ := joinPath_prefix op.outDir (safe op.identifier)
  obtain ⟨hcsv, q, hq⟩ := hpre ".csv".toList (by decide)
  obtain ⟨hasset, -⟩ := hpre ".asset".toList (by decide)
  obtain ⟨dir, hdir, hb, hd⟩ := baseName_spec pre
  have hne : pre ++ ".csv".toList ≠ pre ++ ".asset".toList := fun hh => absurd (List.append_cancel_left hh) (by decide)
  have e1 : pre ++ ".csv".toList = dir ++ (baseName pre ++ ".csv".toList) := by rw [← List.append_assoc, ← hdir]
  have e2 : pre ++ ".asset".toList = dir ++ (baseName pre ++ ".asset".toList) := by rw [← List.append_assoc, ← hdir]
  have n1 : '/' ∉ baseName pre ++ ".csv".toList := by
    rw [List.mem_append]
    exact fun hh => hh.elim hb (by decide)
  have n2 : '/' ∉ baseName pre ++ ".asset".toList := by
    rw [List.mem_append]
    exact fun hh => hh.elim hb (by decide)
  rw [orbitalKepler_ok h, hcsv, hasset]
  refine ⟨dir, baseName pre ++ ".asset".toList, baseName pre ++ ".csv".toList, keplerAsset op (pre ++ ".csv".toList), hd, n2, n1,
    fun hh => absurd (List.append_cancel_left hh) (by decide), ⟨q, ?_, ?_⟩, ?_, ?_, ?_, ?_⟩
  · rw [← e2, hq]; rfl
  · rw [← e1, hq]; rfl
  · have : baseName (pre ++ ".csv".toList) = baseName pre ++ ".csv".toList := by rw [e1]; exact baseName_append _ _ n1 hd
    rw [← this]
    rfl
  · rw [← e2]
    simp [Files.write]
  · rw [← e1]
    simp only [Files.write]
    rw [if_neg hne]
    simp
  · intro p hp1 hp2
    rw [← e2] at hp1
    rw [← e1] at hp2
    simp only [Files.write]
    rw [if_neg hp1, if_neg hp2]

/-- C191: The attributes of the node are the options, in the asset that is written; an option that is not given is no attribute. -/
theorem C191_attributes (shw : K → Str) (epoch : Orbit K → Str) (csv : List (Str × List (Cell K)) → Str) {op : KeplerOptions K}
    (orbits : List (Orbit K)) (fs : Files) (h : Allowed op) :
    ∃ (path : Str) (asset : Val K), (orbitalKepler shw epoch csv op orbits fs).1 path =
        some ("local Object = ".toList ++ text shw 4 asset ++ ['\n', '\n'] ++ initText ["Object".toList]) ∧
      atPath asset ["identifier".toList] = some (.str (op.identifier.map fun c => if c = ' ' then '_' else c)) ∧
      atPath asset ["gui".toList, "name".toList] =
        some (.str (op.guiName.getD (op.identifier.map fun c => if c = ' ' then '_' else c))) ∧
      atPath asset ["gui".toList, "path".toList] = some (.str (op.guiPath.getD "/ADAM".toList)) ∧
      (∀ k v, (k, v) ∈ [("type".toList, Val.str "RenderableOrbitalKepler".toList), ("color".toList, .tuple op.color),
        ("format".toList, .enum "SBDB".toList), ("segment_quality".toList, .num op.segmentQuality)] →
        atPath asset ["renderable".toList, k] = some v) ∧
      (∀ k o, (k, o) ∈ [("dim_in_atmosphere".toList, op.dimInAtmosphere), ("enabled".toList, op.enabled),
        ("contiguous_mode".toList, op.contiguousMode), ("enable_max_size".toList, op.enableMaxSize),
        ("enable_outline".toList, op.enableOutline)] → given .bool o (atPath asset ["renderable".toList, k])) ∧
      (∀ k o, (k, o) ∈ [("opacity".toList, op.opacity), ("max_size".toList, op.maxSize), ("outline_width".toList, op.outlineWidth),
        ("point_size_exponent".toList, op.pointSizeExponent), ("render_size".toList, op.renderSize),
        ("start_render_idx".toList, op.startRenderIdx), ("trail_fade".toList, op.trailFade), ("trail_width".toList, op.trailWidth)] →
        given .num o (atPath asset ["renderable".toList, k])) ∧
      (∀ k o, (k, o) ∈ [("rendering".toList, op.rendering), ("render_bin_mode".toList, op.renderBinMode)] →
        given .enum o (atPath asset ["renderable".toList, k])) ∧
      given .tuple op.outlineColor (atPath asset ["renderable".toList, "outline_color".toList]) ∧
      given (fun t => t.elim .str .list) op.tag (atPath asset ["renderable".toList, "tag".toList]) := by
  have g : ∀ {A : Type} (f : A → Val K) (o : Option A), given f o (some (opt f o)) := by
    intro A f o
    cases o <;> rfl
  refine ⟨joinPath op.outDir (safe op.identifier ++ ".asset".toList),
    keplerAsset op (joinPath op.outDir (safe op.identifier ++ ".csv".toList)), ?_, rfl, rfl, rfl, ?_, ?_, ?_, ?_, g _ _, ?_⟩
  · rw [orbitalKepler_ok h]
    simp [Files.write]
  · intro k v hkv
    simp only [List.mem_cons, Prod.mk.injEq, List.not_mem_nil, or_false] at hkv
    rcases hkv with ⟨rfl, rfl⟩ | ⟨rfl, rfl⟩ | ⟨rfl, rfl⟩ | ⟨rfl, rfl⟩ <;> rfl
  · intro k v hkv
    simp only [List.mem_cons, Prod.mk.injEq, List.not_mem_nil, or_false] at hkv
    rcases hkv with ⟨rfl, rfl⟩ | ⟨rfl, rfl⟩ | ⟨rfl, rfl⟩ | ⟨rfl, rfl⟩ | ⟨rfl, rfl⟩ <;> exact g _ _
  · intro k v hkv
    simp only [List.mem_cons, Prod.mk.injEq, List.not_mem_nil, or_false] at hkv
    rcases hkv with ⟨rfl, rfl⟩ | ⟨rfl, rfl⟩ | ⟨rfl, rfl⟩ | ⟨rfl, rfl⟩ | ⟨rfl, rfl⟩ | ⟨rfl, rfl⟩ | ⟨rfl, rfl⟩ | ⟨rfl, rfl⟩ <;> exact g _ _
  · intro k v hkv
    simp only [List.mem_cons, Prod.mk.injEq, List.not_mem_nil, or_false] at hkv
    rcases hkv with ⟨rfl, rfl⟩ | ⟨rfl, rfl⟩ <;> exact g _ _
  · cases ht : op.tag with
    | none => show some (opt tagVal op.tag) = _; rw [ht]; rfl
    | some t => show some (opt tagVal op.tag) = _; rw [ht]; cases t <;> rfl

/-- C191: The table has one row per orbit, in order, with the orbit id and the elements. -/
theorem C191_table (epoch : Orbit K → Str) (orbits : List (Orbit K)) :
    (sbdbColumns epoch orbits).map Prod.fst = ["full_name", "epoch_cal", "e", "a", "i", "om", "w", "ma", "per"].map String.toList ∧
    ∀ (i : Nat) (o : Orbit K), orbits[i]? = some o →
      ∀ k v, (k, v) ∈ [("full_name", Cell.text o.orbitId), ("epoch_cal", .text (epoch o)), ("e", .num o.e), ("a", .num o.a), ("i", .num o.i),
        ("om", .num o.raan), ("w", .num o.ap), ("ma", .num o.ma), ("per", o.period.elim .missing .num)] →
        ∃ c, column (sbdbColumns epoch orbits) (String.toList k) = some c ∧ c.length = orbits.length ∧ c[i]? = some v := by
  refine ⟨rfl, fun i o hi k v hkv => ?_⟩
  have key : ∀ f : Orbit K → Cell K, (orbits.map f).length = orbits.length ∧ (orbits.map f)[i]? = some (f o) := by
    intro f
    rw [List.getElem?_map, hi]
    exact ⟨List.length_map _, rfl⟩
  simp only [List.mem_cons, Prod.mk.injEq, List.not_mem_nil, or_false] at hkv
  rcases hkv with ⟨rfl, rfl⟩ | ⟨rfl, rfl⟩ | ⟨rfl, rfl⟩ | ⟨rfl, rfl⟩ | ⟨rfl, rfl⟩ | ⟨rfl, rfl⟩ | ⟨rfl, rfl⟩ | ⟨rfl, rfl⟩ | ⟨rfl, rfl⟩
  · exact ⟨_, rfl, key _⟩
  · exact ⟨_, rfl, key _⟩
  · exact ⟨_, rfl, key _⟩
  · exact ⟨_, rfl, key _⟩
  · exact ⟨_, rfl, key _⟩
  · exact ⟨_, rfl, key _⟩
  · exact ⟨_, rfl, key _⟩
  · exact ⟨_, rfl, key _⟩
  · refine ⟨_, rfl, (key _).1, ?_⟩
    rw [(key _).2]
    cases o.period <;> rfl

/-! ## Examples and what does not hold -/

/-- A plain call. -/
def plain (dir identifier : Str) : KeplerOptions ℚ :=
  ⟨dir, identifier, none, none, [1, 1, 1], 10, none, none, none, none, none, none, none, none, none, none, none, none, none, none, none, none,
    none⟩

theorem plain_allowed (dir identifier : Str) : Allowed (plain dir identifier) := ⟨fun r h => (by cases h), fun r h => (by cases h)⟩

example : ¬ Allowed { plain [] [] with rendering := some "Lines".toList } := by
  rintro ⟨h, -⟩
  exact absurd (h _ rfl) (by decide)

/-- C191: Not true that different identifiers have different files: blanks and underscores are confused. -/
theorem C191_overwritten_false : ¬ ∀ (csv : List (Str × List (Cell ℚ)) → Str) (dir s t : Str) (orbits others : List (Orbit ℚ)) (fs : Files)
    (path : Str), s ≠ t → fs path = none →
    (orbitalKepler (fun _ => []) (fun _ => []) csv (plain dir s) orbits fs).1 path = some (csv (sbdbColumns (fun _ => []) orbits)) →
    (orbitalKepler (fun _ => []) (fun _ => []) csv (plain dir t) others
      (orbitalKepler (fun _ => []) (fun _ => []) csv (plain dir s) orbits fs).1).1 path =
        some (csv (sbdbColumns (fun _ => []) orbits)) := by
  intro h
  have := h (fun t => dec ((t.map fun c => c.2.length).sum)) "d".toList "A B".toList "A_B".toList [] [orbitOf []] (fun _ => none)
    "d/A_B.csv".toList (by decide) rfl
  rw [table_written (plain_allowed _ _) _ (by decide) (by decide), table_written (plain_allowed _ _) _ (by decide) (by decide)] at this
  have h5 := this rfl
  revert h5
  decide +kernel

/-- C191: Not true that the files are in the directory given: an identifier may begin with a slash. -/
theorem C191_directory_false : ¬ ∀ (csv : List (Str × List (Cell ℚ)) → Str) (dir s : Str) (fs : Files) (path : Str),
    (orbitalKepler (fun _ => []) (fun _ => []) csv (plain dir s) [] fs).1 path ≠ fs path → dir <+: path := by
  intro h
  have := h (fun _ => []) "d".toList "/e".toList (fun _ => none) "/e.csv".toList
  rw [table_written (plain_allowed _ _) _ (by decide) (by decide)] at this
  have h5 := this (by simp)
  revert h5
  decide

/-- C191: Not true that every bin mode of the signature is accepted. -/
theorem C191_modes_false : ¬ ∀ mode ∈ ["Opaque".toList, "Transparent".toList, "Both".toList],
    ∀ (csv : List (Str × List (Cell ℚ)) → Str) (dir s : Str) (fs : Files),
      (orbitalKepler (fun _ => []) (fun _ => []) csv { plain dir s with renderBinMode := some mode } [] fs).2 = .ok () := by
  intro h
  have := h "Both".toList (by simp) (fun _ => []) [] [] (fun _ => none)
  rw [(C191_errors _ _ _ _ _ _).1] at this
  · cases this
  · rintro ⟨-, h2⟩
    exact absurd (h2 "Both".toList rfl) (by decide)

end Verif.Openspace.KeplerProps

import Verif.Basic
import Verif.Sched.Model
import Mathlib.Algebra.Order.Floor.Ring
import Mathlib.Data.Rat.Floor

/-! # Model of the impact animation and of the risk corridor (`src/adam_core/dynamics/plots.py`)

What the figures show: points, counts, frames and ticks. Styling, logos, buttons, the Earth and the Moon are left out, as are the texts of
labels, of which the numbers are kept. Numbers are rational, without rounding. -/

namespace Verif.Viz

open Verif Sched

/-- A time: integer days and nanoseconds. Its scale is left out: the numbers are compared as they are, whatever the scales.
Used for dynamics/plots.py:606-656. -/
structure Moment where
  days : Int
  nanos : Int
  deriving DecidableEq

/-- `Timestamp.mjd`, without rounding. dynamics/plots.py:610. -/
def Moment.mjd (m : Moment) : ℚ := m.days + m.nanos / 86400000000000

/-- A row of the variants that are shown: `orbit_id`, time and position in km. Used for dynamics/plots.py:514-593, 645-670. -/
structure Dot (I P : Type) where
  id : I
  time : Moment
  place : P
  deriving DecidableEq

/-- A row of `CollisionEvent`: variant, code of the collision object and time. impacts.py:86-100. -/
structure Strike (I : Type) where
  variant : Option I
  code : String
  time : Moment
  deriving DecidableEq

/-- The arguments that choose what is shown. dynamics/plots.py:458-464. -/
structure Choice where
  impacting : Bool := true
  nonImpacting : Bool := true
  bestFit : Bool := true
  sampleImpactors : Option ℚ := none
  sampleNonImpactors : Option ℚ := none

/-- The markers of one group of variants. dynamics/plots.py:672-688. -/
structure Trace (P : Type) where
  group : String
  points : List P
  deriving DecidableEq

/-- The lines of the title about one body: number of impacts, of variants, and percentage. dynamics/plots.py:717-718. -/
structure Tally where
  body : String
  hits : Nat
  total : Nat
  percent : ℚ
  deriving DecidableEq

/-- A frame of the animation. dynamics/plots.py:720-731. -/
structure Frame (P : Type) where
  time : Moment
  traces : List (Trace P)
  bestFit : Option P
  tallies : List Tally
  deriving DecidableEq

variable {I P : Type} [DecidableEq I]

/-- `v.orbit_id.unique()`. dynamics/plots.py:515. -/
def ids (v : List (Dot I P)) : List I := uniq (v.map Dot.id)

/-- `num_variants`. dynamics/plots.py:511-515. -/
def numVariants (groups : List (String × List (Dot I P))) : Nat := (groups.map fun g => (ids g.2).length).sum

/-- The random sample of one group: `choose n l` stands for `np.random.choice(l, n, replace=False)`, which raises ValueError for negative
`n`. dynamics/plots.py:517-593. -/
def sample (choose : Nat → List I → List I) (fraction : Option ℚ) (v : List (Dot I P)) : Except PyErr (List (Dot I P)) :=
  match fraction with
  | none => .ok v
  | some f =>
    if (ids v).length = 0 then .ok (v.filter fun _ => false)
    else
      let size := min ⌈((ids v).length : ℚ) * f⌉ ((ids v).length : Int)
      if size < 0 then .error .valueError
      else .ok (v.filter fun d => decide (d.id ∈ choose size.toNat (ids v)))

/-- `sampled_variants`. dynamics/plots.py:513-593. -/
def sampled (choose : Nat → List I → List I) (c : Choice) (groups : List (String × List (Dot I P))) :
    Except PyErr (List (String × List (Dot I P))) :=
  groups.mapM fun g => do
    let v ← sample choose (if g.1 = "Non-Impacting" then c.sampleNonImpactors else c.sampleImpactors) g.2
    return (g.1, v)

/-- `all_impacts_up_to_current_time`. dynamics/plots.py:609-611. -/
def upTo (impacts : List (Strike I)) (t : Moment) : List (Strike I) := impacts.filter fun s => decide (s.time.mjd ≤ t.mjd)

/-- `impact_count[body_key]`. dynamics/plots.py:619-633. -/
def hits (impacts : List (Strike I)) (t : Moment) (body : String) : Nat :=
  (uniq (((upTo impacts t).filter fun s => decide (s.code = body)).map Strike.variant)).length

/-- `v_at_time`. dynamics/plots.py:645-657. -/
def atTime (v : List (Dot I P)) (t : Moment) : List (Dot I P) :=
  v.filter fun d => decide (d.time.days = t.days) && (decide (d.time.nanos ≤ t.nanos + 100000) && decide (t.nanos - 100000 ≤ d.time.nanos))

/-- Whether a group is left out. dynamics/plots.py:639-643. -/
def hidden (c : Choice) (group : String) : Bool :=
  (decide (group = "Non-Impacting") && !c.nonImpacting) || (decide (group = "Impacting") && !c.impacting)

/-- One frame. `best` has the position of the best-fit orbit at every time. `bodies` are the keys of `impact_count`. Without variants the
percentages are not defined, see `simulation`. dynamics/plots.py:606-733. -/
def frame (c : Choice) (total : Nat) (bodies : List String) (shown : List (String × List (Dot I P))) (best : List P)
    (impacts : List (Strike I)) (i : Nat) (t : Moment) : Frame P :=
  { time := t
    traces := (shown.filter fun g => !hidden c g.1).map fun g => ⟨g.1, (atTime g.2 t).map Dot.place⟩
    bestFit := if c.bestFit then best[i]? else none
    tallies := bodies.map fun b => ⟨b, hits impacts t b, total, (hits impacts t b : ℚ) / total * 100⟩ }

/-- Whether the animation ends: there are impacts, and all variants with impacts have impacted. dynamics/plots.py:595-597, 735-740. -/
def finished (impacts : List (Strike I)) (t : Moment) : Bool :=
  decide (impacts ≠ []) && (impacts.map Strike.variant).all fun v => decide (v ∈ (upTo impacts t).map Strike.variant)

/-- The loop over the times. dynamics/plots.py:605-740. -/
def animate {F : Type} (make : Nat → Moment → F) (stop : Moment → Bool) : Nat → List Moment → List F
  | _, [] => []
  | i, t :: ts => make i t :: if stop t then [] else animate make stop (i + 1) ts

/-- `plot_impact_simulation`: the frames, the first of which is shown at first. ZeroDivisionError: no variants, but a body; IndexError:
no times. dynamics/plots.py:450-868. -/
def simulation (choose : Nat → List I → List I) (c : Choice) (times : List Moment) (best : List P)
    (groups : List (String × List (Dot I P))) (impacts : List (Strike I)) : Except PyErr (List (Frame P)) := do
  let shown ← sampled choose c groups
  let bodies := (groups.map Prod.fst).filter fun k => decide (k ≠ "Non-Impacting")
  let total := numVariants groups
  if times = [] then .error .indexError
  else if total = 0 ∧ bodies ≠ [] then .error .zeroDivision
  else .ok (animate (frame c total bodies shown best impacts) (finished impacts) 0 times)

/-! ## The risk corridor -/

/-- An impact on the map: longitude and latitude, and the time. Used for dynamics/plots.py:912-925. -/
structure Place where
  lon : ℚ
  lat : ℚ
  mjd : ℚ
  deriving DecidableEq

/-- A frame: the places, the minutes by which they are coloured, and the ticks of the colour bar. dynamics/plots.py:978-1014. -/
structure MapFrame where
  places : List Place
  minutes : List ℚ
  ticks : List ℚ
  deriving DecidableEq

/-- The figure: centre of the map, ticks at first, and frames. dynamics/plots.py:930-1046. -/
structure Map where
  center : ℚ × ℚ
  ticks : List ℚ
  frames : List MapFrame
  deriving DecidableEq

/-- `tick_values`. dynamics/plots.py:958-977. -/
def ticks (i : Nat) (m : ℚ) : List ℚ :=
  match i with
  | 0 => [0]
  | 1 => [0, m]
  | _ => [0, m / 2, m]

/-- `time_nums`. dynamics/plots.py:927-928. -/
def minutes (sorted : List Place) : List ℚ :=
  match sorted.map Place.mjd with
  | [] => []
  | t :: ts => (t :: ts).map fun x => (x - ts.foldl min t) * 24 * 60

/-- `plot_risk_corridor`. `S` has the rows of the impacts, `code` and `geodetic` stand for the code of the collision object and for the
transformation of the collision coordinates to the geodetic ones, `order` for the order by `np.argsort`. dynamics/plots.py:871-1142. -/
def corridor {S : Type} (code : S → String) (geodetic : S → Place) (order : List Place → List Place) (impacts : List S) : Except PyErr Map :=
  let earth := impacts.filter fun s => decide (code s = "EARTH")
  if earth = [] then .error .valueError
  else
    let sorted := order (earth.map geodetic)
    match sorted, (minutes sorted).getLast? with
    | first :: _, some last =>
      .ok ⟨(first.lon, first.lat), [0, last],
        (List.range sorted.length).map fun i =>
          ⟨sorted.take (i + 1), (minutes sorted).take (i + 1), ticks i (((minutes sorted)[i]?).getD 0)⟩⟩
    | _, _ => .error .indexError

end Verif.Viz

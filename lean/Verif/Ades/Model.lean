import Verif.Obs80.Model
import Verif.Sched.Model
import Mathlib.Data.List.Lex
import Mathlib.Data.Char
import Mathlib.Order.WithBot
import Mathlib.Data.Prod.Lex

/-! # ADES text (observations/ades.py)

Texts are lists of characters. White space is ASCII (`Mpc.isSpace`), numbers are exact rationals instead of float64, an infinity has no
sign, and underscores in numbers are malformed. `astropy` and `Timestamp.from_iso8601`, which turn times into text and back, and the
shortest text of a float are arbitrary functions. -/

namespace Verif.Ades

open Verif Mpc Obs80 Sched

deriving instance DecidableEq for Obs80.Num

/-! ## Text -/

/-- `s.split(c)`. Used for ades.py:401-424. -/
def splitOn (c : Char) : Str → List Str
  | [] => [[]]
  | x :: xs =>
    if x = c then [] :: splitOn c xs
    else match splitOn c xs with
      | [] => [[x]]
      | w :: ws => (x :: w) :: ws

/-- `c.join(words)`. Used for ades.py:301-303. -/
def join (c : Char) : List Str → Str
  | [] => []
  | [w] => w
  | w :: ws => w ++ c :: join c ws

/-- `t in s`. Used for ades.py:410. -/
def occurs (t s : Str) : Bool := s.tails.any fun r => t.isPrefixOf r

/-! ## Observations -/

/-- The columns of `ADESObservations`. ades.py:150-179. -/
inductive Col
  | permID | provID | trkSub | obsSubID | obsTime | rmsTime | ra | dec | rmsRACosDec | rmsDec | rmsCorr | mag | rmsMag | band | stn | mode
  | astCat | photCat | logSNR | seeing | exp | remarks
  deriving DecidableEq, Repr

/-- The columns in their order. ades.py:150-179. -/
def Col.all : List Col :=
  [.permID, .provID, .trkSub, .obsSubID, .obsTime, .rmsTime, .ra, .dec, .rmsRACosDec, .rmsDec, .rmsCorr, .mag, .rmsMag, .band, .stn,
   .mode, .astCat, .photCat, .logSNR, .seeing, .exp, .remarks]

/-- The name of a column in the text: `rmsRACosDec` is renamed. ades.py:299. -/
def Col.header : Col → Str
  | .permID => "permID".toList
  | .provID => "provID".toList
  | .trkSub => "trkSub".toList
  | .obsSubID => "obsSubID".toList
  | .obsTime => "obsTime".toList
  | .rmsTime => "rmsTime".toList
  | .ra => "ra".toList
  | .dec => "dec".toList
  | .rmsRACosDec => "rmsRA".toList
  | .rmsDec => "rmsDec".toList
  | .rmsCorr => "rmsCorr".toList
  | .mag => "mag".toList
  | .rmsMag => "rmsMag".toList
  | .band => "band".toList
  | .stn => "stn".toList
  | .mode => "mode".toList
  | .astCat => "astCat".toList
  | .photCat => "photCat".toList
  | .logSNR => "logSNR".toList
  | .seeing => "seeing".toList
  | .exp => "exp".toList
  | .remarks => "remarks".toList

/-- Types of columns. Used for ades.py:150-179. -/
inductive Kind
  | text | num | time
  deriving DecidableEq

/-- The type of a column. ades.py:150-179. -/
def Col.kind : Col → Kind
  | .permID | .provID | .trkSub | .obsSubID | .band | .stn | .mode | .astCat | .photCat | .remarks => .text
  | .obsTime => .time
  | _ => .num

/-- Columns that are not nullable. ades.py:150-179. -/
def Col.required : Col → Bool
  | .obsTime | .ra | .dec | .stn | .mode | .astCat => true
  | _ => false

/-- A value of a column; a time is a day and nanoseconds. Used for ades.py:270-303. -/
inductive Val
  | text (s : Str)
  | num (x : Num)
  | time (t : ℤ × ℤ)
  deriving DecidableEq

/-- A row: `none` is null. Used for ades.py:287. -/
abbrev Row := Col → Option Val

/-- The functions of libraries. Used for ades.py:119-145. -/
structure Lib where
  /-- `Time(mjd, format="mjd", precision=p).utc.isot` of a time of the table -/
  isot : Nat → ℤ × ℤ → Str
  /-- `Timestamp.from_iso8601` -/
  iso : Str → Except PyErr (ℤ × ℤ)
  /-- `str` of a float -/
  repr : ℚ → Str

/-! ## Contexts -/

/-- `SoftwareObsContext`. ades.py:67-72. -/
structure Software where
  astrometry : Option Str
  fitOrder : Option Str
  photometry : Option Str
  objectDetection : Option Str
  deriving DecidableEq

/-- `ObsContext` with its parts. ades.py:18-96. -/
structure Ctx where
  mpcCode : Str
  obsName : Option Str
  subName : Str
  institution : Option Str
  observers : List Str
  measurers : List Str
  design : Str
  aperture : ℚ
  detector : Str
  telName : Option Str
  fRatio : Option ℚ
  filter : Option Str
  arraySize : Option Str
  pixelSize : Option ℚ
  software : Option Software
  coinvestigators : Option (List Str)
  collaborators : Option (List Str)
  fundingSource : Option Str
  comments : Option (List Str)
  deriving DecidableEq

/-- An optional text is at most `n` characters long. Used for ades.py:23-26, 34-37, 51-64, 74-82, 98-117. -/
def short (n : Nat) (o : Option Str) : Bool :=
  match o with
  | none => true
  | some s => s.length ≤ n

/-- An optional list of names is not empty, and the names are at most 100 characters long.
Used for ades.py:23-26, 34-37, 51-64, 74-82, 98-117. -/
def names (o : Option (List Str)) : Bool :=
  match o with
  | none => true
  | some l => l ≠ [] && l.all fun s => s.length ≤ 100

/-- An optional number is positive. Used for ades.py:23-26, 34-37, 51-64, 74-82, 98-117. -/
def positive (o : Option ℚ) : Bool :=
  match o with
  | none => true
  | some x => 0 < x

/-- The assertions of the constructors. ades.py:23-26, 34-37, 51-64, 74-82, 98-117. -/
def Ctx.valid (c : Ctx) : Bool :=
  (c.mpcCode.length = 3 || c.mpcCode.length = 4) && short 100 c.obsName && c.subName.length ≤ 100 && short 100 c.institution &&
  short 100 c.telName && c.design.length ≤ 25 && 0 < c.aperture && c.detector.length ≤ 25 && positive c.fRatio && short 25 c.filter &&
  short 25 c.arraySize && positive c.pixelSize &&
  (match c.software with
    | none => true
    | some s => short 100 s.astrometry && short 25 s.fitOrder && short 100 s.photometry && short 100 s.objectDetection) &&
  names (some c.observers) && names (some c.measurers) && names c.coinvestigators && names c.collaborators && short 100 c.fundingSource &&
  (match c.comments with
    | none => true
    | some l => l.all fun s => s.length ≤ 100)

/-- The line of a key and its value. ades.py:126, 137, 144. -/
def bang (key : String) (value : Str) : Str := "! ".toList ++ key.toList ++ ' ' :: value

/-- The line of a key with an optional value. ades.py:124-126. -/
def bangOpt (key : String) (value : Option Str) : List Str := value.toList.map (bang key)

/-- The line of a section. ades.py:123, 135, 139, 142. -/
def hash (section_ : String) : Str := "# ".toList ++ section_.toList

/-- The lines of the software section. ades.py:122-126. -/
def softLines : Option Software → List Str
  | none => []
  | some s => hash "software" :: bangOpt "astrometry" s.astrometry ++ bangOpt "fitOrder" s.fitOrder ++
      bangOpt "photometry" s.photometry ++ bangOpt "objectDetection" s.objectDetection

/-- The lines of an optional list of names. ades.py:128-137. -/
def nameLines (section_ : String) : Option (List Str) → List Str
  | none => []
  | some l => hash section_ :: l.map (bang "name")

/-- The line of the funding source. ades.py:138-139. -/
def fundLines : Option Str → List Str
  | none => []
  | some s => [hash "fundingSource" ++ ' ' :: s]

/-- The lines of the comments. ades.py:140-144. -/
def commentLines : Option (List Str) → List Str
  | none => []
  | some l => if l = [] then [] else hash "comment" :: l.map (bang "line")

/-- The lines of `ObsContext.to_string`. ades.py:119-145. -/
def Ctx.lines (lib : Lib) (c : Ctx) : List Str :=
  [hash "observatory", bang "mpcCode" c.mpcCode] ++ bangOpt "name" c.obsName ++
  [hash "submitter", bang "name" c.subName] ++ bangOpt "institution" c.institution ++
  hash "observers" :: c.observers.map (bang "name") ++
  hash "measurers" :: c.measurers.map (bang "name") ++
  [hash "telescope", bang "design" c.design, bang "aperture" (lib.repr c.aperture), bang "detector" c.detector] ++
  bangOpt "name" c.telName ++ bangOpt "fRatio" (c.fRatio.map lib.repr) ++ bangOpt "filter" c.filter ++
  bangOpt "arraySize" c.arraySize ++ bangOpt "pixelSize" (c.pixelSize.map lib.repr) ++
  softLines c.software ++ nameLines "coinvestigators" c.coinvestigators ++ nameLines "collaborators" c.collaborators ++
  fundLines c.fundingSource ++ commentLines c.comments

/-! ## Writing -/

/-- Digits with `p` decimals of a number of units of the last one. Used for ades.py:294. -/
def fixedNat (p n : Nat) : Str := if p = 0 then dec n else dec (n / 10 ^ p) ++ '.' :: zfill p (dec (n % 10 ^ p))

/-- `f"{x:.{p}f}"`. ades.py:294. -/
def fixed (p : Nat) : Num → Str
  | .fin x => (if x < 0 then ['-'] else []) ++ fixedNat p (Time.roundHalfEven (|x| * 10 ^ p)).toNat
  | .inf => "inf".toList
  | .nan => "nan".toList

/-- The text of a cell before quoting. `prec` is `columns_precision`, for columns with numbers: a null is a NaN in the data frame, and the
condition `i is not None or not np.isnan(i)` holds for it. The other numbers are written by `to_csv`, NaN as an empty text.
A precision for a column without numbers, which fails, is ignored here.
ades.py:270-303. -/
def cellText (lib : Lib) (secs : Nat) (prec : Col → Option Nat) (c : Col) (v : Option Val) : Str :=
  match v with
  | none => if c.kind = .num ∧ (prec c).isSome then "nan".toList else []
  | some (.text s) => s
  | some (.num x) =>
    match prec c with
    | some p => fixed p x
    | none => if x = .nan then [] else fixed 16 x
  | some (.time t) => lib.isot secs t ++ ['Z']

/-- pandas' missing values: null and NaN. Used for ades.py:287. -/
def missing (v : Option Val) : Bool := v = none || v = some (.num .nan)

/-- The columns left by `dropna(how="all", axis=1)`. ades.py:287. -/
def kept (rows : List Row) : List Col := Col.all.filter fun c => rows.any fun r => !missing (r c)

/-- A field of `to_csv`: quoted if it contains a separator, a quote or an end of line. ades.py:301-303. -/
def csvField (s : Str) : Str :=
  if s.any fun c => c = '|' || c = '"' || c = '\n' || c = '\r' then
    '"' :: (s.flatMap fun c => if c = '"' then ['"', '"'] else [c]) ++ ['"']
  else s

/-- A line of `to_csv`. ades.py:301-303. -/
def csvLine (fields : List Str) : Str := join '|' (fields.map csvField)

/-- The text of a cell, for sorting: nulls come last. Used for ades.py:239-247. -/
def sortText (v : Option Val) : WithTop (List Char) :=
  match v with
  | some (.text s) => (s : WithTop (List Char))
  | _ => ⊤

/-- The day and nanoseconds of a cell. Used for ades.py:239-247. -/
def timeOf (v : Option Val) : ℤ × ℤ :=
  match v with
  | some (.time t) => t
  | _ => (0, 0)

/-- The sort key of a row: nulls come last. ades.py:239-247. -/
def rowKey (r : Row) : WithTop (List Char) ×ₗ WithTop (List Char) ×ₗ WithTop (List Char) ×ₗ ℤ ×ₗ ℤ :=
  toLex (sortText (r .provID), toLex (sortText (r .permID), toLex (sortText (r .trkSub),
    toLex ((timeOf (r .obsTime)).1, (timeOf (r .obsTime)).2))))

/-- The station of a row. Used for ades.py:238-247. -/
def station (r : Row) : Str :=
  match r .stn with
  | some (.text s) => s
  | _ => []

/-- The rows of a station, sorted. ades.py:238-247. -/
def rowsOf (rows : List Row) (s : Str) : List Row := sortBy rowKey (rows.filter fun r => station r = s)

/-- `observations.stn.unique()`, sorted. ades.py:231-232. -/
def stations (rows : List Row) : List Str := sortBy id (uniq (rows.map station))

/-- The lines for the rows of one station. ades.py:268-303. -/
def tableLines (lib : Lib) (secs : Nat) (prec : Col → Option Nat) (rows : List Row) : List Str :=
  csvLine ((kept rows).map Col.header) :: rows.map fun r => csvLine ((kept rows).map fun c => cellText lib secs prec c (r c))

/-- The block of one station. ades.py:234-303. -/
def block (lib : Lib) (secs : Nat) (prec : Col → Option Nat) (contexts : List (Str × Ctx)) (rows : List Row) (s : Str) :
    Except PyErr (List Str) :=
  match contexts.lookup s with
  | none => .error .valueError
  | some ctx =>
    let part := rowsOf rows s
    if part.all fun r => r .permID = none && r .provID = none && r .trkSub = none then .error .valueError
    else .ok (ctx.lines lib ++ tableLines lib secs prec part)

/-- Lines with their ends. Used for ades.py:182-305. -/
def textOf (lines : List Str) : Str := lines.flatMap fun l => l ++ ['\n']

/-- `ADES_to_string`. ades.py:182-305. -/
def toText (lib : Lib) (secs : Nat) (prec : Col → Option Nat) (rows : List Row) (contexts : List (Str × Ctx)) : Except PyErr Str :=
  match gather (block lib secs prec contexts rows) (stations rows) with
  | .error e => .error e
  | .ok blocks => .ok (textOf ("# version=2022".toList :: blocks.flatten))

/-! ## Reading the observations -/

/-- The column a header stands for; unknown columns are ignored. (A header `rmsRACosDec`, which is not converted to numbers, is treated as
unknown.) ades.py:312-319, 369-375. -/
def ofHeader (h : Str) : Option Col := Col.all.find? fun c => c.header = h

/-- An empty cell is null. ades.py:321-323. -/
def emptyToNone (s : Str) : Option Str := if s = [] ∨ s.all isSpace then none else some s

/-- The conversion of a cell. Text is stripped except in `remarks`; the last character of a time is dropped. A time that is null fails.
ades.py:321-367. -/
def convert (lib : Lib) (c : Col) (s : Str) : Except PyErr (Option Val) :=
  match emptyToNone s with
  | none => if c.kind = .time then .error .valueError else .ok none
  | some s =>
    match c.kind with
    | .num =>
      match number s with
      | none => .error .valueError
      | some x => .ok (some (.num x))
    | .text => .ok (some (.text (if c = .remarks then s else strip s)))
    | .time =>
      match lib.iso s.dropLast with
      | .error e => .error e
      | .ok t => .ok (some (.time t))

/-- The validators of `rmsRACosDec` and `rmsDec`: not less than 1e-7, less than 100; nulls pass, NaN does not. ades.py:160-167. -/
def inRange (v : Option Val) : Bool :=
  match v with
  | some (.num (.fin x)) => 1 / 10000000 ≤ x && x < 100
  | none => true
  | _ => false

/-- The converted columns. Which of several errors comes first is not followed. ades.py:321-375. -/
def convertCols (lib : Lib) (dict : List (Str × List Str)) : Except PyErr (List (Col × List (Option Val))) :=
  gather (fun (c, l) =>
    match gather (convert lib c) l with
    | .error e => .error e
    | .ok l => .ok (c, l)) (dict.filterMap fun (h, l) => (ofHeader h).map fun c => (c, l))

/-- `_data_dict_to_table`: an empty dictionary is an empty table; the columns must have the same length, required ones must be there and
have no nulls, the validated ones must be in range. ades.py:308-377. -/
def dictToTable (lib : Lib) (dict : List (Str × List Str)) : Except PyErr (List Row) :=
  if dict = [] then .ok []
  else
    match convertCols lib dict with
    | .error e => .error e
    | .ok cols =>
      match cols with
      | [] => .error .valueError
      | (_, first) :: _ =>
        if cols.any fun p => p.2.length ≠ first.length then .error .valueError
        else if Col.all.any fun c => c.required && (match cols.lookup c with | none => true | some l => l.any fun v => v = none) then
          .error .valueError
        else if cols.any fun p => (p.1 = .rmsRACosDec || p.1 = .rmsDec) && p.2.any fun v => !inRange v then .error .valueError
        else .ok ((List.range first.length).map fun i c => ((cols.lookup c).bind fun l => l[i]?).join)

/-- A header line: it contains the name of an identifier, anywhere. ades.py:410. -/
def isHeader (line : Str) : Bool :=
  occurs "permID".toList line || occurs "provID".toList line || occurs "trkSub".toList line

/-- A metadata line. ades.py:406. -/
def isMeta (line : Str) : Bool := "#".toList.isPrefixOf line || "!".toList.isPrefixOf line

/-- One more line of data: the lists of the dictionary grow by the fields, as far as there are any. ades.py:418-421. -/
def addLine : List (Str × List Str) → List Str → List (Str × List Str)
  | (h, l) :: cols, f :: fields => (h, l ++ [f]) :: addLine cols fields
  | cols, _ => cols

/-- The loop over the lines, and the last table: rows read so far, current dictionary. ades.py:401-424. -/
def readData (lib : Lib) (rows : List Row) (dict : List (Str × List Str)) : List Str → Except PyErr (List Row)
  | [] =>
    match dictToTable lib dict with
    | .error e => .error e
    | .ok t => .ok (rows ++ t)
  | line :: rest =>
    if isMeta line then readData lib rows dict rest
    else if isHeader line then
      match dictToTable lib dict with
      | .error e => .error e
      | .ok t => readData lib (rows ++ t) ((uniq ((splitOn '|' line).map strip)).map fun h => (h, [])) rest
    else readData lib rows (addLine dict (splitOn '|' line)) rest

/-! ## Reading the contexts -/

/-- A value of a section: one text, or the texts of a repeated key. Used for ades.py:523. -/
inductive Field
  | one (s : Str)
  | many (l : List Str)
  deriving DecidableEq

/-- A section: a text on the line of the section, or keys with values. Used for ades.py:428-431. -/
inductive Sec
  | text (s : Str)
  | fields (l : List (Str × Field))
  deriving DecidableEq

/-- `d[k] = v`. Used for ades.py:441-444, 466-467. -/
def insert {K V : Type} [DecidableEq K] (k : K) (v : V) : List (K × V) → List (K × V)
  | [] => [(k, v)]
  | (k', v') :: d => if k' = k then (k, v) :: d else (k', v') :: insert k v d

/-- The state of the loop over the metadata. ades.py:428-431. -/
structure Meta where
  contexts : List (Option Str × Ctx)
  current : List (Str × Sec)
  section_ : Option Str
  code : Option Str

/-- `d[section]` as a dictionary: KeyError if it is missing, TypeError if it is a text. Used for ades.py:472-524. -/
def fieldsOf (d : List (Str × Sec)) (k : String) : Except PyErr (List (Str × Field)) :=
  match d.lookup k.toList with
  | none => .error .keyError
  | some (.text _) => .error .typeError
  | some (.fields l) => .ok l

/-- `d.get(section, {})`; the methods called on it fail for a text. Used for ades.py:472-524. -/
def fieldsOr (d : List (Str × Sec)) (k : String) : Except PyErr (List (Str × Field)) :=
  match d.lookup k.toList with
  | none => .ok []
  | some (.text _) => .error .attributeError
  | some (.fields l) => .ok l

/-- `l[k]`: KeyError if it is missing. The keys read this way have one text. Used for ades.py:472-524. -/
def need (l : List (Str × Field)) (k : String) : Except PyErr Str :=
  match l.lookup k.toList with
  | none => .error .keyError
  | some (.one s) => .ok s
  | some (.many _) => .error .typeError

/-- `l.get(k)`. Used for ades.py:472-524. -/
def get (l : List (Str × Field)) (k : String) : Option Str :=
  match l.lookup k.toList with
  | some (.one s) => some s
  | _ => none

/-- `float(l[k]) if k in l else None`. Used for ades.py:472-524. -/
def getNum (l : List (Str × Field)) (k : String) : Except PyErr (Option ℚ) :=
  match get l k with
  | none => .ok none
  | some s =>
    match number s with
    | some (.fin x) => .ok (some x)
    | _ => .error .valueError

/-- The names of `observers` and `measurers`. Used for ades.py:472-524. -/
def needMany (l : List (Str × Field)) (k : String) : Except PyErr (List Str) :=
  match l.lookup k.toList with
  | some (.many l) => .ok l
  | _ => .error .keyError

/-- `l.get("line", [])`. ades.py:523. -/
def linesIn (l : List (Str × Field)) : List Str :=
  match l.lookup "line".toList with
  | some (.many l) => l
  | _ => []

/-- `_build_obs_context`. Co-investigators and collaborators are not looked at. Numbers that are not finite are treated as malformed, a
`fundingSource` with keys is refused, and which of several errors comes first is not followed; a missing detector fails in `len`.
ades.py:472-524. -/
def build (d : List (Str × Sec)) : Except PyErr Ctx := do
  let obs ← fieldsOf d "observatory"
  let code ← need obs "mpcCode"
  let sub ← fieldsOf d "submitter"
  let subName ← need sub "name"
  let tel ← fieldsOr d "telescope"
  let design ← need tel "design"
  let ap ← need tel "aperture"
  let aperture ← match number ap with
    | some (.fin x) => .ok x
    | _ => .error .valueError
  let fRatio ← getNum tel "fRatio"
  let pixelSize ← getNum tel "pixelSize"
  let detector ← match get tel "detector" with
    | some s => .ok s
    | none => .error .typeError
  let soft ← fieldsOr d "software"
  let observers ← fieldsOf d "observers"
  let observers ← needMany observers "name"
  let measurers ← fieldsOf d "measurers"
  let measurers ← needMany measurers "name"
  let com ← fieldsOr d "comment"
  let funding ← match d.lookup "fundingSource".toList with
    | none => .ok none
    | some (.text s) => .ok (some s)
    | some (.fields _) => .error .assertionError
  let ctx : Ctx :=
    { mpcCode := code, obsName := get obs "name", subName := subName, institution := get sub "institution", observers := observers,
      measurers := measurers, design := design, aperture := aperture, detector := detector, telName := get tel "name", fRatio := fRatio,
      filter := get tel "filter", arraySize := get tel "arraySize", pixelSize := pixelSize,
      software := if soft = [] then none else
        some ⟨get soft "astrometry", get soft "fitOrder", get soft "photometry", get soft "objectDetection"⟩,
      coinvestigators := none, collaborators := none, fundingSource := funding, comments := some (linesIn com) }
  if ctx.valid then .ok ctx else .error .assertionError

/-- The first word of a line and the rest, both stripped word by word. ades.py:438, 455. -/
def keyValue (line : Str) : Str × List Str :=
  match (splitOn ' ' line).map strip with
  | [] => ([], [])
  | k :: v => (k, v)

/-- The end of a context. ades.py:441-444, 466-467. -/
def finish (m : Meta) : Except PyErr (List (Option Str × Ctx)) :=
  if m.current = [] then .ok m.contexts
  else
    match build m.current with
    | .error e => .error e
    | .ok c => .ok (insert m.code c m.contexts)

/-- A line that starts with `#`. ades.py:434-451. -/
def readHash (m : Meta) (line : Str) : Except PyErr Meta :=
  let line := strip line.tail
  if "version".toList.isPrefixOf line then .ok m
  else
    let kv := keyValue line
    if kv.1 = "observatory".toList then
      match finish m with
      | .error e => .error e
      | .ok cs => .ok ⟨cs, if kv.2 = [] then [] else [(kv.1, .text (join ' ' kv.2))], some kv.1, none⟩
    else .ok { m with current := if kv.2 = [] then m.current else insert kv.1 (.text (join ' ' kv.2)) m.current, section_ := some kv.1 }

/-- A line that starts with `!`. (A line before any section is put into a section with an empty name instead of `None`.)
ades.py:453-464. -/
def readBang (m : Meta) (line : Str) : Except PyErr Meta :=
  let kv := keyValue (strip line.tail)
  let value := join ' ' kv.2
  let code := if kv.1 = "mpcCode".toList then some value else m.code
  let sec := m.section_.getD []
  let many := sec = "observers".toList ∨ sec = "measurers".toList ∨ sec = "comment".toList
  match m.current.lookup sec with
  | some (.text _) => if many then .error .attributeError else .error .typeError
  | some (.fields l) =>
    if many then
      let old := match l.lookup kv.1 with
        | some (.many vs) => vs
        | _ => []
      .ok { m with current := insert sec (.fields (insert kv.1 (.many (old ++ [value])) l)) m.current, code := code }
    else .ok { m with current := insert sec (.fields (insert kv.1 (.one value) l)) m.current, code := code }
  | none =>
    if many then .ok { m with current := insert sec (.fields [(kv.1, .many [value])]) m.current, code := code }
    else .ok { m with current := insert sec (.fields [(kv.1, .one value)]) m.current, code := code }

/-- The loop over the metadata. ades.py:433-469. -/
def readMeta (m : Meta) : List Str → Except PyErr (List (Option Str × Ctx))
  | [] => finish m
  | line :: rest =>
    if "#".toList.isPrefixOf line then
      match readHash m line with
      | .error e => .error e
      | .ok m => readMeta m rest
    else if "!".toList.isPrefixOf line then
      match readBang m line with
      | .error e => .error e
      | .ok m => readMeta m rest
    else readMeta m rest

/-- The lines of a text, stripped, without empty ones. ades.py:398-399. -/
def linesOf (text : Str) : List Str := ((splitOn '\n' text).map strip).filter fun l => l ≠ []

/-- `ADES_string_to_tables`. ades.py:380-469. -/
def ofText (lib : Lib) (text : Str) : Except PyErr (List (Option Str × Ctx) × List Row) :=
  match readData lib [] [] (linesOf text) with
  | .error e => .error e
  | .ok rows =>
    match readMeta ⟨[], [], none, none⟩ (linesOf text) with
    | .error e => .error e
    | .ok cs => .ok (cs, rows)

end Verif.Ades

import Verif.Basic
import Verif.Text.Model
import Verif.Grib.Protobuf
import Mathlib.Data.String.Basic

/-!
# Model of the index of GRIB messages (src/io/grib/GribCDMIndexer.cc)

A message is the record of what the indexer asks it for. Names, times and levels are computed from the
message by the configuration and the GRIB library, and are inputs here; messages skipped by
`select_only_defined` are left out beforehand. Not modelled: reference time, projections, attributes, vertical
coordinates (`pv`), and the data type of the variables. `std::map`s are lists of keys in order of the keys with
a function; the nested maps of one variable are one list of keys and values in the order of first insertion
(they are only read to set distinct places of a table). An exception ends the construction of the reader,
the state it leaves is not modelled.
-/

namespace Fimex.Grib

open Fimex.Text Fimex.Pb

/-- What `loadOneMessage` uses of a message. `time` is the encoded valid time (see C29), `none` if invalid. -/
structure Msg (G : Type) where
  name : String
  time : Option Nat
  total : Nat
  pert : Nat
  levelType : Int × Int
  level : Int
  grid : G
  file : String
  start : Nat
  size : Nat
deriving Repr, DecidableEq

/-- `std::set::insert` for a set kept as ascending list. -/
def setInsert {α : Type} [LinearOrder α] (a : α) : List α → List α
  | [] => [a]
  | b :: l => if a < b then a :: b :: l else if b < a then b :: setInsert a l else b :: l

/-- src/io/grib/GribCDMIndexer.cc:113-132 `var_has`, as far as modelled. -/
structure VarHas (G : Type) where
  hasTime : Bool
  hasEns : Bool
  grid : G
  levelType : Int × Int
  levels : List Int
deriving Repr, DecidableEq

/-- src/io/grib/GribCDMIndexer.cc:96-157 `Init`, as far as modelled. -/
structure St (G : Type) where
  times : List Nat
  maxEns : Nat
  names : List String
  has : String → Option (VarHas G)
  box : String → List ((Nat × Int × Nat) × Chunk)
  files : StringList

/-- src/io/grib/GribCDMIndexer.cc:182-187. -/
def St.init (G : Type) : St G := ⟨[], 0, [], fun _ => none, fun _ => [], StringList.empty true⟩

/-- `m[key] = value` for the nested maps of one variable. -/
def upsert {κ α : Type} [DecidableEq κ] (k : κ) (v : α) : List (κ × α) → List (κ × α)
  | [] => [(k, v)]
  | p :: l => if p.1 = k then (k, v) :: l else p :: upsert k v l

variable {G : Type}

/-- src/io/grib/GribCDMIndexer.cc:523-531: number of the member, 0 without ensemble. -/
def perturbation (m : Msg G) : Nat := if ¬ m.total > 1 ∧ m.pert ≠ 0 then 0 else m.pert

/-- src/io/grib/GribCDMIndexer.cc:533-546: largest number of members so far. -/
def newMaxEns (maxEns : Nat) (m : Msg G) : Nat :=
  if m.total > 1 then
    let e := if maxEns = 0 then m.total else if maxEns < m.total then m.total else maxEns
    if e ≤ perturbation m then perturbation m + 1 else e
  else maxEns

/-- src/io/grib/GribCDMIndexer.cc:486-600 `loadOneMessage`; `same` is equality of grid definitions. -/
def load (same : G → G → Bool) (s : St G) (m : Msg G) : Res (St G) :=
  let known := s.has m.name
  let hasTime := m.time.isSome
  let hasEns := decide (m.total > 1)
  -- lines 514-515
  if known.any (fun v => hasTime != v.hasTime) then .throws
  -- lines 550-551
  else if known.any (fun v => v.hasEns != hasEns) then .throws
  -- lines 559-564
  else if known.any (fun v => v.levelType != m.levelType) then .throws
  -- lines 574-575
  else if known.any (fun v => !same m.grid v.grid) then .throws
  else
    let v := match known with
      | some v => { v with levels := setInsert m.level v.levels }
      | none => ⟨hasTime, hasEns, m.grid, m.levelType, [m.level]⟩
    -- lines 594-599
    let f := s.files.add m.file
    .ok { times := match m.time with
            | some t => setInsert t s.times
            | none => s.times
          maxEns := newMaxEns s.maxEns m
          names := setInsert m.name s.names
          has := fun n => if n = m.name then some v else s.has n
          box := fun n => if n = m.name then
            upsert (m.time.getD 0, m.level, perturbation m) ⟨f.2, m.start, m.size⟩ (s.box n) else s.box n
          files := f.1 }

/-- src/io/grib/GribCDMIndexer.cc:189-212 `load`: all messages. -/
def loadAll (same : G → G → Bool) (s : St G) : List (Msg G) → Res (St G)
  | [] => .ok s
  | m :: ms => load same s m >>= fun s => loadAll same s ms

/-- The level values of all variables, by type of level. -/
abbrev Levels := (Int × Int) → List (List Int)

/-- src/io/grib/GribCDMIndexer.cc:605-632, one variable: position of its level values, which are added if they
are not there. -/
def levelPos (lv : Levels) (v : VarHas G) : Levels × Nat :=
  match (lv v.levelType).findIdx? (· == v.levels) with
  | some p => (lv, p)
  | none => (fun t => if t = v.levelType then lv t ++ [v.levels] else lv t, (lv v.levelType).length)

/-- src/io/grib/GribCDMIndexer.cc:602-635 `buildLevels`. -/
def buildLevels (has : String → Option (VarHas G)) : List String → Levels → (String → Nat) → Levels × (String → Nat)
  | [], lv, pos => (lv, pos)
  | n :: ns, lv, pos =>
    match has n with
    | none => buildLevels has ns lv pos
    | some v =>
      let r := levelPos lv v
      buildLevels has ns r.1 fun k => if k = n then r.2 else pos k

/-- src/io/grib/GribCDMIndexer.cc:690-697 `find_index`. -/
def findIndex {α : Type} [BEq α] (l : List α) (a : α) : Res Nat :=
  match l.findIdx? (· == a) with
  | some i => .ok i
  | none => .throws

/-- src/io/grib/GribCDMIndexer.cc:733-752: the messages of one variable into the table; the position is compared
with the number of messages (line 746), and again with the size of the vector by `at` (line 749). -/
def place (times : List Nat) (levels : List Int) (dimE size : Nat) (table : List Chunk) :
    List ((Nat × Int × Nat) × Chunk) → Res (List Chunk)
  | [] => .ok table
  | ((t, l, e), c) :: rest => do
    let it ← findIndex times t
    let il ← findIndex levels l
    let idx := (it * levels.length + il) * dimE + e
    if size ≤ idx then .throws
    else if table.length ≤ idx then .throws
    else place times levels dimE size (table.set idx c) rest

/-- A variable as far as messages are concerned: number of members, levels and times in its shape, and the
table. -/
structure Table where
  dimE : Nat
  dimL : Nat
  dimT : Nat
  messages : List Chunk
deriving Repr, DecidableEq

/-- src/io/grib/GribCDMIndexer.cc:700-752, one variable. The shape is the one made by `initAddVariables`
(lines 918-946): x, y, members if the variable has ensembles, levels, times if it has times; the length of the
level dimension is the number of level values (line 318). -/
def tableOf (s : St G) (lv : Levels) (pos : String → Nat) (n : String) : Res Table :=
  match s.has n with
  | none => .throws
  | some v => do
    let levels ← match (lv v.levelType)[pos n]? with
      | some l => .ok l
      | none => .throws
    let dimE := if v.hasEns then s.maxEns else 1
    let dimT := if v.hasTime then s.times.length else 1
    let size := dimE * levels.length * dimT
    let ms ← place s.times levels dimE size (List.replicate size ⟨0, 0, 0⟩) (s.box n)
    .ok ⟨dimE, levels.length, dimT, ms⟩

/-- src/io/grib/GribCDMIndexer.cc:214-239 `build`, the tables of all variables. -/
def build (s : St G) : Res (List (String × Table)) :=
  let r := buildLevels s.has s.names (fun _ => []) (fun _ => 0)
  s.names.mapM fun n => do
    let t ← tableOf s r.1 r.2 n
    .ok (n, t)

end Fimex.Grib

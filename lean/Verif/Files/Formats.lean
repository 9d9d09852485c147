import Verif.Files.Glob
import Verif.Grib.Protobuf

/-!
# The formats

Model of the five factories of readers and writers, `src/io/netcdf/NetCDFIoFactory.cc:52-223`, `src/io/grib/GribIoFactory.cc:54-184`,
`src/io/felt/FeltIoFactory.cc:46-68`, `src/NcmlIoFactory.cc:43-56`, `src/NullIoFactory.cc:42-60` and `src/IoFactory.cc:33-56`: which types,
first bytes and names of files they recognise, and what they open.  The theorems are C125 in `Verif.Files.FormatsProps`.  The choice among the
factories is modelled in `Verif.Files.Factory` (C61).

Text is a list of bytes.  `first bytes` is a buffer of exactly the given number of bytes; reading behind it is undefined.  Regular
expressions are modelled as in `Verif.Files.Glob`.  The readers and writers themselves are modelled elsewhere; here they are what they
are created from.
-/

namespace Fimex.Formats

open Fimex.Glob Fimex.Text

/-- The factories. -/
inductive Format where
  | felt | grib | ncml | netcdf | null
deriving DecidableEq

/-! ## Types -/

/-- src/io/netcdf/NetCDFIoFactory.cc:72-75 `isNetCDF4Type`. -/
def netcdf4Types : List (List Char) := ["nc4".toList, "nc".toList, "netcdf4".toList, "netcdf".toList]

/-- src/io/netcdf/NetCDFIoFactory.cc:77-80 `isNetCDF4ClassicType`. -/
def netcdf4ClassicTypes : List (List Char) := ["nc4c".toList, "nc4classic".toList, "netcdf4classic".toList]

/-- src/io/netcdf/NetCDFIoFactory.cc:82-85 `isNetCDF3Type`. -/
def netcdf3Types : List (List Char) := ["nc3".toList, "cdf".toList, "netcdf3".toList]

/-- src/io/netcdf/NetCDFIoFactory.cc:87-99 `getNetCDFVersion`. -/
def netcdfVersion (type : List Char) : Nat :=
  if netcdf4Types.contains type then 5
  else if netcdf4ClassicTypes.contains type then 4
  else if netcdf3Types.contains type then 3
  else 0

/-- src/io/netcdf/NetCDFIoFactory.cc:129-136: the groups of `(\w+)(\+rw)?`, an empty text if it does not match. -/
def splitRw (type : List Char) : List Char × Bool :=
  let w := type.takeWhile isWord
  let r := type.dropWhile isWord
  if w = [] then ([], false)
  else if r = [] then (w, false)
  else if r = "+rw".toList then (w, true)
  else ([], false)

/-- src/io/grib/GribIoFactory.cc:54-57 `isGrib2Type`. -/
def isGrib2Type (t : List Char) : Bool := t = "grb2".toList ∨ t = "grib2".toList

/-- src/io/grib/GribIoFactory.cc:64-67 `isGribType`. -/
def isGribType (t : List Char) : Bool :=
  t = "grb".toList ∨ t = "grib".toList ∨ t = "grb1".toList ∨ t = "grib1".toList ∨ isGrib2Type t = true

/-- src/io/grib/GribIoFactory.cc:61-62. -/
def grbml : List Char := "grbml".toList
/-- See `grbml`. -/
def grbfp : List Char := "grbfp".toList

/-- src/io/felt/FeltIoFactory.cc:46-49 `isFeltType`. -/
def isFeltType (t : List Char) : Bool :=
  ["flt".toList, "dat".toList, "felt".toList, "flt2".toList, "dat2".toList, "felt2".toList].contains t

/-- `matchFileTypeName`: src/io/felt/FeltIoFactory.cc:55-58, src/io/grib/GribIoFactory.cc:116-123, src/NcmlIoFactory.cc:43-46,
src/io/netcdf/NetCDFIoFactory.cc:127-144, src/NullIoFactory.cc:47-50. -/
def typeScore : Format → List Char → Int
  | .felt, t => if isFeltType t then 1 else 0
  | .grib, t => if t = grbml ∨ t = grbfp then 1 else if isGribType t then 1 else 0
  | .ncml, t => if t = "ncml".toList then 1 else 0
  | .netcdf, t => if netcdfVersion (splitRw t).1 ≠ 0 then 1 else 0
  | .null, t => if t = "null".toList then 1 else 0

/-! ## First bytes -/

/-- src/io/netcdf/NetCDFIoFactory.cc:52-70: comparison of the bytes in order up to the first difference. -/
def sameBytes : List Nat → List Nat → Res Bool
  | [], _ => .ok true
  | _ :: _, [] => .ub
  | p :: ps, m :: ms => if p ≠ m then .ok false else sameBytes ps ms

/-- src/io/netcdf/NetCDFIoFactory.cc:54, `"\211HDF\r\n\032"`. -/
def hdf5 : List Nat := [137, 72, 68, 70, 13, 10, 26]
/-- src/io/netcdf/NetCDFIoFactory.cc:64, `"CDF\001"`. -/
def cdf1 : List Nat := [67, 68, 70, 1]

/-- `a && b` with a second operand that may be undefined. -/
def andThen (a : Bool) (b : Res Bool) : Res Bool := if a then b else .ok false

/-- src/io/netcdf/NetCDFIoFactory.cc:120-125 `matchMagic`; the buffer has `count` bytes. -/
def netcdfMagic (magic : List Nat) : Res Int :=
  (andThen (4 ≤ magic.length) (sameBytes hdf5 magic)).bind fun a =>
    if a then .ok 1
    else (andThen (7 ≤ magic.length) (sameBytes cdf1 magic)).bind fun b => .ok (if b then 1 else 0)

/-- "GRIB". -/
def gribBytes : List Nat := [71, 82, 73, 66]

/-- src/io/grib/GribIoFactory.cc:102-114 `matchMagic`, with protobuf. -/
def gribMagic (magic : List Nat) : Res Int :=
  if 4 ≤ magic.length ∧ Pb.strncmpEq 4 magic gribBytes = true then .ok 1
  else if Pb.checkMagic magic then .ok 1
  else .ok 0

/-- `matchMagic`; src/IoFactory.cc:38-41 for the others. -/
def magicScore : Format → List Nat → Res Int
  | .netcdf, m => netcdfMagic m
  | .grib, m => gribMagic m
  | _, _ => .ok 0

/-- `matchMagicSize`: src/io/netcdf/NetCDFIoFactory.cc:115-118, src/io/grib/GribIoFactory.cc:93-100, src/IoFactory.cc:33-36. -/
def magicSize : Format → Nat
  | .netcdf => 7
  | .grib => max 4 (Pb.fimexMagic.length + Pb.gribMagic.length)
  | _ => 0

/-! ## Names -/

/-- The expression of characters that stand for themselves. -/
def lits (s : List Char) : List Item := s.map fun c => ⟨.lit c, false⟩
/-- `.*`. -/
def dots : List Item := [⟨.any, true⟩]

/-- src/io/netcdf/NetCDFIoFactory.cc:106-111 `isNetCDFZarrFile`, `^file:.*#.*mode=.*zarr.*`. -/
def zarrItems : List Item :=
  lits "file:".toList ++ dots ++ lits "#".toList ++ dots ++ lits "mode=".toList ++ dots ++ lits "zarr".toList ++ dots

/-- See `zarrItems`. -/
def isZarr (file : List Char) : Bool := matchAll zarrItems file

/-- src/io/netcdf/NetCDFIoFactory.cc:154-157: the scheme of a URL, `^(\w+)://`. -/
def scheme (name : List Char) : Option (List Char) :=
  let w := name.takeWhile isWord
  if w ≠ [] ∧ "://".toList.isPrefixOf (name.dropWhile isWord) = true then some w else none

/-- src/io/netcdf/NetCDFIoFactory.cc:153. -/
def urlSchemes : List (List Char) := ["https".toList, "http".toList, "dods".toList]

/-- `matchFileName`: src/io/netcdf/NetCDFIoFactory.cc:146-165, src/NullIoFactory.cc:42-45, src/IoFactory.cc:43-46 for the others. -/
def nameScore : Format → List Char → Int
  | .netcdf, n =>
    if extension n = "nc".toList ∨ extension n = "nc4".toList then 1
    else if (scheme n).any urlSchemes.contains then 2
    else if isZarr n then 1
    else 0
  | .null, _ => 0
  | f, n => typeScore f (extension n)

/-! ## netCDF readers and writers -/

/-- What the netCDF factory opens: one file, to be changed or not, or the files of a pattern one after the other. -/
inductive NcSource where
  | file (path : List Char) (writeable : Bool)
  | glob (pattern : List Char)
deriving DecidableEq

/-- `regex_replace(s, "^pat", by, format_first_only)` of a pattern of characters that stand for themselves. -/
def replaceStart (pat with_ s : List Char) : List Char := if pat.isPrefixOf s then with_ ++ s.drop pat.length else s

/-- src/io/netcdf/NetCDFIoFactory.cc:192-200. -/
def netcdfPath (name : List Char) : List Char :=
  let f := if isZarr name then name else replaceStart "file:".toList [] name
  replaceStart "dods:".toList "http:".toList f

/-- src/io/netcdf/NetCDFIoFactory.cc:167-214 `createReader` and `createReaderWriter`: the source, and whether the NcML configuration is
put around it. -/
def netcdfReader (type name : List Char) (config : Bool) : Res (NcSource × Bool) :=
  if (splitRw type).2 then
    if config then .throws else .ok (.file name true, false)
  else if "glob:".toList.isPrefixOf name then .ok (.glob (name.drop 5), config)
  else .ok (.file (netcdfPath name) false, config)

/-- src/io/netcdf/NetCDFIoFactory.cc:216-223 `createWriter`: the version written. -/
def netcdfWriter (type : List Char) : Nat := if netcdfVersion type = 0 then 5 else netcdfVersion type

/-! ## GRIB readers and writers -/

/-- `tokenize`, with enough rounds of its loop (`Text.C26_tokenize_is_words`). -/
def tokens (s delims : List Char) : Res (List (List Char)) := (tokenize (s.length + 1) s delims).getD .ub

/-- `at`. -/
def at_ (l : List (List Char)) (i : Nat) : Res (List Char) :=
  match l[i]? with
  | some x => .ok x
  | none => .throws

/-- src/io/grib/GribIoFactory.cc:75-79 and 81-85: the first token and the name given to it. -/
def member (s : List Char) : Res (List Char × List Char) := do
  let ps ← tokens s ":".toList
  let ps ← (if ps.length = 1 then (at_ ps 0).bind fun x => .ok (ps ++ [x]) else .ok ps)
  let name ← at_ ps 1
  let first ← at_ ps 0
  .ok (name, first)

/-- src/io/grib/GribIoFactory.cc:69-91 `parseGribArgs`: members (name and expression) and files. -/
def parseArgs : List (List Char) → Res (List (List Char × List Char) × List (List Char))
  | [] => .ok ([], [])
  | a :: as =>
    if "memberRegex:".toList.isPrefixOf a then do
      let m ← member (a.drop 12)
      let r ← parseArgs as
      .ok (m :: r.1, r.2)
    else if "memberName:".toList.isPrefixOf a then do
      let m ← member (a.drop 11)
      let r ← parseArgs as
      .ok ((m.1, ".*".toList ++ regexEscape m.2 ++ ".*".toList) :: r.1, r.2)
    else do
      let r ← parseArgs as
      .ok (r.1, a :: r.2)

/-- What the GRIB factory opens. -/
inductive GribSource where
  | grbml (path : List Char) (members : List (List Char × List Char))
  | index (path : List Char) (config : Bool)
  | files (paths : List (List Char)) (members : List (List Char × List Char))
deriving DecidableEq

/-- src/io/grib/GribIoFactory.cc:139-159: the files named by the file name. -/
def gribFiles (glob : List Char → Res (List (List Char))) (lines : List Char → List (List Char)) (name : List Char) : Res (List (List Char)) :=
  if "glob:".toList.isPrefixOf name then glob (name.drop 5)
  else if "many:".toList.isPrefixOf name ∧ name.length > 6 then tokens (name.drop 6) ((name.drop 5).take 1)
  else if "list:".toList.isPrefixOf name then .ok (lines (name.drop 5))
  else .ok [name]

/-- src/io/grib/GribIoFactory.cc:125-167 `createReader`. -/
def gribReader (glob : List Char → Res (List (List Char))) (lines : List Char → List (List Char)) (type name : List Char) (config : Bool)
    (args : List (List Char)) : Res GribSource :=
  if type = grbml ∨ extension name = grbml then do
    let r ← parseArgs args
    if !config then .throws else .ok (.grbml name r.1)
  else if type = grbfp ∨ extension name = grbfp then .ok (.index name config)
  else do
    let fs ← gribFiles glob lines name
    let r ← parseArgs args
    if !config then .throws else .ok (.files (fs ++ r.2) r.1)

/-- src/io/grib/GribIoFactory.cc:169-184 `createWriter`: the edition written. -/
def gribWriter (type name : List Char) : Res Nat :=
  if type = grbml ∨ extension name = grbml then .throws
  else if isGrib2Type type || isGrib2Type (extension name) then .ok 2
  else if isGribType type || isGribType (extension name) then .ok 1
  else .throws

end Fimex.Formats

import Mathlib.Data.List.Basic
import Mathlib.Logic.Function.Basic
import Mathlib.Algebra.Order.Ring.Int

/-!
Model of how the argument `chunksize` of `FieldSet.from_netcdf` becomes the block sizes with which the files of each field are opened
(parcels/fieldfilebuffer.py:191-255, 315-337, 401-427, 496-546, 595-669; parcels/fieldset.py:373-412; parcels/field.py:386-417,
1344-1363).

A dictionary is a list of key and value (the first entry of a key counts). A dictionary given by the caller is an object: fields refer to it by
number, and the heap maps numbers to contents. Simplifications: an entry of a chunk dictionary is a pair of a name and an integer; the map from
array axis to size (`chunk_mapping`), which nothing reads, is left out; the number of points along an edge of an automatic block, which depends on the
memory of the machine and on the configuration of dask, is a parameter; opening a file succeeds; `filenames` gives each variable its list of
files; no `indices`; nobody adds names to the table of usual names; which blocks xarray makes of a dimension it is given no size for is not modelled.
-/

namespace Parcels.ChunkSpec

/-- A chunk dictionary: parcels dimension ↦ (netCDF dimension, size). Models: fieldset.py:373, fieldfilebuffer.py:208. -/
abbrev Dict := List (String × String × Int)

/-- The dimensions in a file and their sizes (`dataset.dims`). Models: fieldfilebuffer.py:416-425. -/
abbrev File := List (String × Nat)

/-- `_static_name_maps`: the names a dimension usually has in files. Models: fieldfilebuffer.py:192-197. -/
abbrev Maps := String → List String

/-- What is passed to `xr.open_dataset(chunks=…)`. Models: fieldfilebuffer.py:239, 654. -/
abbrev Blocks := List (String × Int)

/-- The value of `chunksize` for one field; a dictionary is a reference; `nested`: the dictionary by variable, for a variable without entry.
Models: fieldset.py:373. -/
inductive Ref where
  | off | auto | other | nested
  | dict (id : Nat)
  deriving DecidableEq, Repr

/-- Exceptions. Models: fieldfilebuffer.py:227, 650, fieldset.py:387-388. -/
inductive Err where
  | attribute | chunking | key | type
  deriving DecidableEq, Repr

/-- The names as shipped. Models: fieldfilebuffer.py:192-197. -/
def stdMaps : Maps := fun d =>
  if d = "time" then ["time", "time_count", "time_counter", "timer_count", "t"]
  else if d = "depth" then ["depth", "depthu", "depthv", "depthw", "depths", "deptht", "depthx", "depthy", "depthz", "z", "z_u", "z_v", "z_w",
    "d", "k", "w_dep", "w_deps", "Z", "Zp1", "Zl", "Zu", "level"]
  else if d = "lat" then ["lat", "nav_lat", "y", "latitude", "la", "lt", "j", "YC", "YG"]
  else if d = "lon" then ["lon", "nav_lon", "x", "longitude", "lo", "ln", "i", "XC", "XG"]
  else []

/-- The dimensions in the order of the code. Models: fieldfilebuffer.py:325, 510-545. -/
def order : List String := ["time", "depth", "lat", "lon"]

/-- Whether the request leaves the dimension whole: no entry, or a size of at most one. `none`: the request is not a dictionary.
Models: fieldfilebuffer.py:331. -/
def whole (c : Option Dict) (d : String) : Bool :=
  match c with
  | some c => match c.lookup d with
    | none => true
    | some (_, v) => v ≤ 1
  | none => false

/-- The loop of `_get_available_dims_indices_by_request`, from position `i`, with `neg` dimensions skipped so far.
Models: fieldfilebuffer.py:325-336. -/
def availLoop (dims : List String) (c : Option Dict) : List String → Int → Int → List (String × Option Int)
  | [], _, _ => []
  | d :: ds, i, neg =>
    if d ∉ dims then (d, none) :: availLoop dims c ds (i + 1) (neg + 1)
    else if whole c d then (d, none) :: availLoop dims c ds (i + 1) (neg + 1)
    else (d, some (i - neg)) :: availLoop dims c ds (i + 1) neg

/-- `_get_available_dims_indices_by_request()[d]`. Models: fieldfilebuffer.py:315-337. -/
def avail (dims : List String) (c : Option Dict) (d : String) : Option Int :=
  ((availLoop dims c order 0 0).lookup d).join

/-- `_is_dimension_in_dataset`: index, name and size of a dimension; the index is -1 if it is not in the file, and `none` if the field does not have
the dimension or it stays whole. Models: fieldfilebuffer.py:401-427. -/
def inDataset (m : Maps) (f : File) (dims : List String) (c : Option Dict) (d : String) (hint : Option String) : Option Int × String × Nat :=
  let i := avail dims c d
  match hint.bind (fun h => f.lookup h), hint with
  | some size, some h => (i, h, size)
  | _, _ =>
    match (m d).find? fun n => (f.lookup n).isSome with
    | some n => (i, n, (f.lookup n).getD 0)
    | none => (some (-1), "", 0)

/-- `dict[k] = v`. Models: fieldfilebuffer.py:515. -/
def put (b : Blocks) (k : String) (v : Int) : Blocks := (k, v) :: b.filter (fun e => e.1 ≠ k)

/-- `dict.pop(k)`. Models: fieldfilebuffer.py:518. -/
def pop (c : Dict) (k : String) : Dict := c.filter (fun e => e.1 ≠ k)

/-- `timei is not None and timei >= 0`. Models: fieldfilebuffer.py:513. -/
def present (i : Option Int) : Bool := match i with
  | some k => 0 ≤ k
  | none => false

/-- One of the four blocks of `_get_initial_chunk_dictionary_by_dict_`. Models: fieldfilebuffer.py:510-518. -/
def dictStep (m : Maps) (f : File) (dims : List String) (s : Dict × Blocks) (d : String) : Dict × Blocks :=
  match s.1.lookup d with
  | none => s
  | some (nc, v) =>
    let r := inDataset m f dims (some s.1) d (some nc)
    if present r.1 ∧ v > 1 then (s.1, put s.2 r.2.1 (min r.2.2 v))
    else (pop s.1 d, s.2)

/-- `_get_initial_chunk_dictionary_by_dict_`: the caller's dictionary afterwards, and the blocks. Models: fieldfilebuffer.py:496-546. -/
def byDict (m : Maps) (f : File) (dims : List String) (c : Dict) : Dict × Blocks := order.foldl (dictStep m f dims) (c, [])

/-- Automatic chunks; `p` points along an edge. Models: fieldfilebuffer.py:617-643. -/
def byAuto (m : Maps) (p : Nat) (f : File) (dims : List String) : Blocks :=
  let lon := inDataset m f dims none "lon" none
  let lat := inDataset m f dims none "lat" none
  let b : Blocks := if present lat.1 ∧ present lon.1 then put (put [] lat.2.1 (min lat.2.2 p)) lon.2.1 (min lon.2.2 p) else []
  let time := inDataset m f dims none "time" none
  let b := if present time.1 then put b time.2.1 (min 1 time.2.2) else b
  let depth := inDataset m f dims none "depth" none
  if present depth.1 then put b depth.2.1 (max 1 depth.2.2) else b

/-- The caller's dictionaries. Models: fieldset.py:373. -/
abbrev Heap := Nat → Dict

/-- Opening a file with `DaskFileBuffer.__enter__` (`off`: with `NetcdfFileBuffer`): the dictionaries afterwards, and the blocks.
Models: fieldfilebuffer.py:216-233, 595-669, field.py:398-407. -/
def openFile (m : Maps) (p : Nat) (h : Heap) (f : File) (dims : List String) : Ref → Except Err (Heap × Option Blocks)
  | .off => .ok (h, none)
  | .other => .error .attribute
  | .nested => .error .chunking
  | .auto => .ok (h, some (byAuto m p f dims))
  | .dict id =>
    let r := byDict m f dims (h id)
    if r.2.isEmpty then .error .chunking else .ok (Function.update h id r.1, some r.2)

/-- Opening the files of a field one after the other. Models: field.py:413-416, 1344-1363. -/
def openFiles (m : Maps) (p : Nat) (dims : List String) (r : Ref) : List File → Heap → Except Err (Heap × List (Option Blocks))
  | [], h => .ok (h, [])
  | f :: fs, h => do
    let (h, b) ← openFile m p h f dims r
    let (h, bs) ← openFiles m p dims r fs h
    return (h, b :: bs)

/-- A variable of `from_netcdf`: its dimensions (parcels name ↦ name of the variable in the file), its files (a label and the header of each), its
`chunksize`, and whether it is loaded later. Models: fieldset.py:357-376, field.py:392-396. -/
structure Req where
  dimensions : List (String × String)
  paths : String
  files : List File
  chunk : Ref
  deferred : Bool

/-- The parcels dimensions of a field. Models: fieldfilebuffer.py:327. -/
def Req.dims (r : Req) : List String := r.dimensions.map (·.1)

/-- `==` of dictionaries. Models: fieldset.py:386. -/
def dictEq (a b : Dict) : Bool := a.all (fun e => b.lookup e.1 == a.lookup e.1) && b.all (fun e => a.lookup e.1 == b.lookup e.1)

/-- `==` of two values of `chunksize`. Models: fieldset.py:386. -/
def refEq (h : Heap) : Ref → Ref → Bool
  | .dict a, .dict b => dictEq (h a) (h b)
  | a, b => a = b

/-- Comparing the sizes of a dictionary with those of the field processed before. Models: fieldset.py:387-389. -/
def compareSizes (h : Heap) (proc : Ref) : Dict → Except Err Bool
  | [] => .ok true
  | (d, _, v) :: rest =>
    match proc with
    | .dict id => match (h id).lookup d with
      | none => .error .key
      | some (_, w) => do
        let t ← compareSizes h proc rest
        return (decide (v = w) && t)
    | .nested => .error .key
    | _ => .error .type

/-- `possibly_samegrid`. Models: fieldset.py:385-389. -/
def sameChunks (h : Heap) (proc var : Ref) : Except Err Bool :=
  if refEq h proc var then .ok true
  else match var with
    | .dict id => compareSizes h proc (h id)
    | .nested => .error .key
    | _ => .error .type

/-- The search for a grid that was already made: the position of the field whose grid is used. Models: fieldset.py:378-407. -/
def findGrid (h : Heap) (r : Req) : List Req → Nat → Except Err (Option Nat)
  | [], _ => .ok none
  | q :: qs, k =>
    if q.dimensions = r.dimensions then do
      let same ← sameChunks h q.chunk r.chunk
      if ¬ same then return none
      else if r.chunk = .auto then return none
      else if r.dimensions.lookup "depth" = some "not_yet_set" then return none
      else if q.paths = r.paths then return some k
      else findGrid h r qs (k + 1)
    else findGrid h r qs (k + 1)

/-- Constructing the fields: each looks for its grid, and is opened if it is not deferred. Models: fieldset.py:358-412, field.py:409-417. -/
def construct (m : Maps) (p : Nat) : List Req → List Req → Heap → Except Err (Heap × List (List (Option Blocks)))
  | _, [], h => .ok (h, [])
  | done, r :: rs, h => do
    let _ ← findGrid h r done 0
    let (h, b) ← if r.deferred then .ok (h, []) else openFiles m p r.dims r.chunk r.files h
    let (h, bs) ← construct m p (done ++ [r]) rs h
    return (h, b :: bs)

/-- Loading the deferred fields, at the first execution. Models: fieldset.py:1058-1064, field.py:1344-1363. -/
def loadDeferred (m : Maps) (p : Nat) : List Req → Heap → Except Err (Heap × List (List (Option Blocks)))
  | [], h => .ok (h, [])
  | r :: rs, h => do
    let (h, b) ← if r.deferred then openFiles m p r.dims r.chunk r.files h else .ok (h, [])
    let (h, bs) ← loadDeferred m p rs h
    return (h, b :: bs)

/-- `from_netcdf` and the first load: the caller's dictionaries afterwards, and for each field the blocks with which each of its files was opened.
Models: fieldset.py:286-416, 1017-1064. -/
def load (m : Maps) (p : Nat) (rs : List Req) (h : Heap) : Except Err (Heap × List (List (Option Blocks))) := do
  let (h, a) ← construct m p [] rs h
  let (h, b) ← loadDeferred m p rs h
  return (h, List.zipWith (· ++ ·) a b)

/-- The argument `chunksize` of `from_netcdf`. Models: fieldset.py:287, 373. -/
inductive Arg where
  | one (r : Ref)
  | each (vars : List (String × Ref))

/-- `chunksize[var] if (chunksize and var in chunksize) else chunksize`. Models: fieldset.py:373. -/
def Arg.of (a : Arg) (var : String) : Ref := match a with
  | .one r => r
  | .each vs => (vs.lookup var).getD .nested

end Parcels.ChunkSpec

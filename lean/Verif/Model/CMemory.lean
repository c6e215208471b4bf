import Verif.Model.Lib

/-!
# The C interface at the level of memory (lib.rs)

`Model/Lib.lean` gives the C entry points lists for arrays.  Here they get addresses, read the caller's arrays with
`slice::from_raw_parts`, and hand out the `Vec`s they leak.

Simplifications: memory consists of disjoint blocks and pointers point to the beginning of a block (pointers into the
middle of an array are not modelled); `&mut` parameters are values, and what is written through them is returned;
allocations that do not outlive the call are not modelled; addresses of new blocks come from a parameter `malloc`, the
capacity of a `Vec` from a parameter `cap`.
-/

namespace RustBCA
open Scalar
variable {F : Type} [Scalar F]

/-- The contents of a block of memory, by the type it is used at: `f64`, `[f64; 3]`, `i32`, `bool`, and `[f64; 9]` or
`[f64; 6]`. -/
inductive Cells (F : Type) where
  | f64 (l : List F)
  | triple (l : List (Vec3 F))
  | i32 (l : List Int)
  | bool (l : List Bool)
  | rows (l : List (List F))

def Cells.asF64 : Cells F → Option (List F)
  | .f64 l => some l
  | _ => none

def Cells.asTriple : Cells F → Option (List (Vec3 F))
  | .triple l => some l
  | _ => none

def Cells.asI32 : Cells F → Option (List Int)
  | .i32 l => some l
  | _ => none

/-- A block of memory; `layout` is what Rust's allocator was asked for, if the block is Rust's. -/
structure Block (F : Type) where
  cells : Cells F
  layout : Option Layout

/-- The blocks of memory by their addresses. -/
abbrev Memory (F : Type) := Nat → Option (Block F)

/-- How a call from C can fail: undefined behaviour, or a panic. -/
inductive CErr where
  | ub
  | err (e : Err)
deriving DecidableEq

/-- Computations that draw random numbers, read and write memory, and may fail. -/
abbrev CCall (F : Type) := StateT (Tape F × Memory F) (Except CErr)

/-- A computation without access to memory. -/
def callRust {α : Type} (m : M F α) : CCall F α := fun s =>
  match m s.1 with
  | .ok (a, t) => .ok (a, (t, s.2))
  | .error e => .error (.err e)

/-- `slice::from_raw_parts(ptr, len)` with its safety conditions: the pointer is neither null nor misaligned, `len`
elements can be read from it, and they take no more than `isize::MAX` bytes. -/
def from_raw_parts {α : Type} (view : Cells F → Option (List α)) (size align ptr len : Nat) : CCall F (List α) := fun s =>
  if ptr ≠ 0 ∧ ptr % align = 0 then
    if len = 0 then .ok ([], s)
    else match (s.2 ptr).bind fun b => view b.cells with
      | some l => if len ≤ l.length ∧ len*size < 2^63 then .ok (l.take len, s) else .error .ub
      | none => .error .ub
  else .error .ub

/-- `from_raw_parts` on `*mut f64`. -/
def raw_f64 (ptr len : Nat) : CCall F (List F) := from_raw_parts Cells.asF64 8 8 ptr len

/-- `from_raw_parts` on `*mut [f64; 3]`. -/
def raw_triple (ptr len : Nat) : CCall F (List (Vec3 F)) := from_raw_parts Cells.asTriple 24 8 ptr len

/-- `from_raw_parts` on `*mut i32`. -/
def raw_i32 (ptr len : Nat) : CCall F (List Int) := from_raw_parts Cells.asI32 4 4 ptr len

/-- `*n as usize` for a `c_int`: sign extension on a 64-bit platform. -/
def as_usize (n : Int) : Nat := (n % 2^64).toNat

/-- `len as c_int`: the low 32 bits. -/
def as_c_int (n : Nat) : Int := ((n : Int) + 2147483648) % 4294967296 - 2147483648

/-- lib.rs:338-346 (and 535-539, 653-657, 775-778): `v.as_mut_ptr(); std::mem::forget(v)` for a `Vec` of `len`
elements: its block stays; an empty `Vec` has none, and its pointer is dangling (its address is the alignment). -/
def leak (malloc : Memory F → Nat) (cap : Nat → Nat) (size align len : Nat) (cells : Cells F) : CCall F Nat := fun s =>
  if len = 0 then .ok (align, s)
  else
    let a := malloc s.2
    .ok (a, (s.1, fun x => if x = a then some ⟨cells, some ⟨cap len*size, align⟩⟩ else s.2 x))

/-- `dealloc(ptr, layout)`: the block must be allocated, and with this layout. -/
def dealloc (ptr : Nat) (layout : Layout) : CCall F Unit := fun s =>
  match s.2 ptr with
  | some b => if b.layout = some layout then .ok ((), (s.1, fun x => if x = ptr then none else s.2 x)) else .error .ub
  | none => .error .ub

/-- lib.rs:163-168 `OutputBCA`. -/
structure OutputBCA where
  len : Nat
  particles : Nat

/-- lib.rs:171-179 `OutputTaggedBCA`, with addresses. -/
structure OutputTaggedPtr where
  len : Nat
  particles : Nat
  weights : Nat
  tags : Nat
  incident : Nat

/-- lib.rs:105-119 `InputSimpleBCA`. -/
structure InputSimpleBCA (F : Type) where
  len : Nat
  velocities : Nat
  Z1 : F
  m1 : F
  Ec1 : F
  Es1 : F
  Z2 : F
  m2 : F
  n2 : F
  Ec2 : F
  Es2 : F
  Eb2 : F

/-- lib.rs:121-139 `InputCompoundBCA`. -/
structure InputCompoundBCA (F : Type) where
  len : Nat
  velocities : Nat
  Z1 : F
  m1 : F
  Ec1 : F
  Es1 : F
  num_species_target : Nat
  Z2 : Nat
  m2 : Nat
  n2 : Nat
  Ec2 : Nat
  Es2 : Nat
  Eb2 : Nat

/-- lib.rs:141-162 `InputTaggedBCA`, with addresses. -/
structure InputTaggedPtr (F : Type) where
  len : Nat
  positions : Nat
  velocities : Nat
  Z1 : F
  m1 : F
  Ec1 : F
  Es1 : F
  num_species_target : Nat
  Z2 : Nat
  m2 : Nat
  n2 : Nat
  Ec2 : Nat
  Es2 : Nat
  Eb2 : Nat
  tags : Nat
  weights : Nat

/-- lib.rs:201-212 `drop_output_bca`. -/
def drop_output_bca_mem (output : OutputBCA) : CCall F Unit :=
  if 0 < output.len then dealloc output.particles ⟨output.len, 8⟩ else pure ()

/-- lib.rs:180-199 `drop_output_tagged_bca`. -/
def drop_output_tagged_bca_mem (output : OutputTaggedPtr) : CCall F Unit :=
  if 0 < output.len then do
    dealloc output.particles ⟨output.len, 8⟩
    dealloc output.weights ⟨output.len, 8⟩
    dealloc output.tags ⟨output.len, 4⟩
    dealloc output.incident ⟨output.len, 1⟩
  else pure ()

section
variable (malloc : Memory F → Nat) (cap : Nat → Nat) (rcpr : Rcpr F) (fuel : Nat) (ext : Ext F)

/-- lib.rs:433-542 `simple_bca_list_c`. -/
def simple_bca_list_mem (input : InputSimpleBCA F) : CCall F OutputBCA := do
  let x := list_start_x input.n2
  let (m, _) ← callRust (liftM (mesh0d_material ext
    (compound_parameters [input.Z2] [input.m2] [input.Ec2] [input.Es2] [input.Eb2] input.len [0] .AVERAGE)
    "ANGSTROM" [input.n2]))
  let velocities ← raw_triple input.velocities input.len
  let total_output ← callRust (forFold (velocity_body rcpr fuel input.Z1 input.m1 input.Ec1 input.Es1 x m) velocities [])
  let particles ← leak malloc cap 72 8 total_output.length (.rows total_output)
  pure ⟨total_output.length, particles⟩

/-- lib.rs:544-660 `compound_bca_list_c`. -/
def compound_bca_list_mem (input : InputCompoundBCA F) : CCall F OutputBCA := do
  let Z2 ← raw_f64 input.Z2 input.num_species_target
  let m2 ← raw_f64 input.m2 input.num_species_target
  let n2 ← raw_f64 input.n2 input.num_species_target
  let Ec2 ← raw_f64 input.Ec2 input.num_species_target
  let Es2 ← raw_f64 input.Es2 input.num_species_target
  let Eb2 ← raw_f64 input.Eb2 input.num_species_target
  let x := list_start_x (fsum n2)
  let (m, _) ← callRust (liftM (mesh0d_material ext
    (compound_parameters Z2 m2 Ec2 Es2 Eb2 input.num_species_target (List.replicate input.num_species_target 0) .AVERAGE)
    "ANGSTROM" n2))
  let velocities ← raw_triple input.velocities input.len
  let total_output ← callRust (forFold (velocity_body rcpr fuel input.Z1 input.m1 input.Ec1 input.Es1 x m) velocities [])
  let particles ← leak malloc cap 72 8 total_output.length (.rows total_output)
  pure ⟨total_output.length, particles⟩

/-- lib.rs:214-350 `compound_tagged_bca_list_c`. -/
def compound_tagged_bca_list_mem (input : InputTaggedPtr F) : CCall F OutputTaggedPtr := do
  let Z2 ← raw_f64 input.Z2 input.num_species_target
  let m2 ← raw_f64 input.m2 input.num_species_target
  let n2 ← raw_f64 input.n2 input.num_species_target
  let Ec2 ← raw_f64 input.Ec2 input.num_species_target
  let Es2 ← raw_f64 input.Es2 input.num_species_target
  let Eb2 ← raw_f64 input.Eb2 input.num_species_target
  let positions ← raw_triple input.positions input.len
  let tags ← raw_i32 input.tags input.len
  let weights ← raw_f64 input.weights input.len
  let x := list_start_x (fsum n2)
  let (m, _) ← callRust (liftM (mesh0d_material ext
    (compound_parameters Z2 m2 Ec2 Es2 Eb2 input.num_species_target (List.replicate input.num_species_target 0) .AVERAGE)
    "ANGSTROM" n2))
  let velocities ← raw_triple input.velocities input.len
  let out ← callRust (forFold (tagged_body rcpr fuel
    ⟨positions, velocities, input.Z1, input.m1, input.Ec1, input.Es1, Z2, m2, n2, Ec2, Es2, Eb2, tags, weights⟩ x m)
    velocities.zipIdx ⟨0, [], [], [], []⟩)
  let particles ← leak malloc cap 72 8 out.particles.length (.rows out.particles)
  let tags ← leak malloc cap 4 4 out.tags.length (.i32 out.tags)
  let weights ← leak malloc cap 8 8 out.weights.length (.f64 out.weights)
  let incident ← leak malloc cap 1 1 out.incident.length (.bool out.incident)
  pure ⟨out.particles.length, particles, weights, tags, incident⟩

/-- lib.rs:662-780 `compound_bca_list_fortran`: what it stores in `num_emitted_particles`, and the address it
returns. -/
def compound_bca_list_fortran_mem (num_incident_ions : Int) (track_recoils : Bool) (ux uy uz E1 Z1 m1 Ec1 Es1 : Nat)
    (num_species_target : Int) (Z2 m2 Ec2 Es2 Eb2 n2 : Nat) : CCall F (Int × Nat) := do
  let k := as_usize num_incident_ions
  let n := as_usize num_species_target
  let ux ← raw_f64 ux k
  let uy ← raw_f64 uy k
  let uz ← raw_f64 uz k
  let Z1 ← raw_f64 Z1 k
  let m1 ← raw_f64 m1 k
  let E1 ← raw_f64 E1 k
  let Ec1 ← raw_f64 Ec1 k
  let Es1 ← raw_f64 Es1 k
  let Z2 ← raw_f64 Z2 n
  let m2 ← raw_f64 m2 n
  let n2 ← raw_f64 n2 n
  let Ec2 ← raw_f64 Ec2 n
  let Es2 ← raw_f64 Es2 n
  let Eb2 ← raw_f64 Eb2 n
  let total_output ← callRust (compound_bca_list_fortran rcpr fuel ext track_recoils ux uy uz E1 Z1 m1 Ec1 Es1
    Z2 m2 Ec2 Es2 Eb2 n2)
  let particles ← leak malloc cap 48 8 total_output.length (.rows total_output)
  pure (as_c_int total_output.length, particles)

/-- lib.rs:782-794 `simple_bca_c`. -/
def simple_bca_mem (x y z ux uy uz E1 Z1 m1 Ec1 Es1 Z2 m2 Ec2 Es2 n2 Eb2 : F) : CCall F OutputBCA := do
  let output ← callRust (simple_bca rcpr fuel ext x y z ux uy uz E1 Z1 m1 Ec1 Es1 Z2 m2 Ec2 Es2 n2 Eb2)
  let particles ← leak malloc cap 72 8 output.length (.rows output)
  pure ⟨output.length, particles⟩

/-- lib.rs:352-431 `reflect_single_ion_c`: what it stores in `ux`, `uy`, `uz` and `E1`. -/
def reflect_single_ion_mem (num_species_target : Int) (ux uy uz E1 Z1 m1 Ec1 Es1 : F) (Z2 m2 Ec2 Es2 Eb2 n2 : Nat) :
    CCall F (F × F × F × F) := do
  callRust (liftM (rassert (E1 >. 0.0) "assertion failed: E1 > &mut 0.0"))
  let n := as_usize num_species_target
  let Z2 ← raw_f64 Z2 n
  let m2 ← raw_f64 m2 n
  let n2 ← raw_f64 n2 n
  let Ec2 ← raw_f64 Ec2 n
  let Es2 ← raw_f64 Es2 n
  let Eb2 ← raw_f64 Eb2 n
  callRust (reflect_single_ion_c rcpr fuel ext ux uy uz E1 Z1 m1 Ec1 Es1 Z2 m2 Ec2 Es2 Eb2 n2)

end

end RustBCA

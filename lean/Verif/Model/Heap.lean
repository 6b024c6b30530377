import Verif.Model.Program

/-!
# Ownership of the digit buffers

The rest of the model replaces the `ext` pointer of an integer by the digits it points to.  Here
the pointer is a pointer: integers are a width and either a digit or an address
(`/repo/src/apint/mod.rs:26-38`), the buffers live in a heap, and constructors, `clone`, `assign`,
`truncate`, the extensions and `drop` allocate, copy and free exactly where the code does.
Reading or freeing an address that is not live, or freeing it with a capacity other than the one
it was allocated with, is undefined behaviour and gives `ub`.

Calls that only change digits in place read the digits through the pointer, compute the new digits
with the function of the pure model, and write them back to the same buffer.  Temporary vectors of
the arithmetic code (`Vec`s and clones that are local to one call and owned by safe code) are not
tracked here.  The copy of an operand that a division-by-zero or unrepresentable-value error owns
(`/repo/src/apint/arithmetic.rs:1556`, `/repo/src/apint/to_primitive.rs:316`) is added in
`Model/HeapErrors.lean`.
-/

namespace Verif

/-- A live allocation: its capacity in digits and the digits written to it. What `ext` of
`/repo/src/apint/mod.rs:26-38` points to. -/
structure Block where
  cap : Nat
  digits : List Digit
  deriving DecidableEq

/-- What the allocator was asked to do. The requests come from
`/repo/src/apint/constructors.rs:28-33`, `/repo/src/apint/constructors.rs:71-84`,
`/repo/src/apint/constructors.rs:174`. -/
inductive Event where
  | alloc (p cap : Nat)
  | free (p cap : Nat)
  deriving DecidableEq

/-- The live allocations by address, and everything that happened so far, oldest first. Not in
`/repo` (the global allocator). -/
structure Heap where
  cells : List (Nat × Block)
  log : List Event
  deriving DecidableEq

/-- The global allocator: `pick` chooses the address of the next allocation.  It may reuse the
address of a buffer that has been freed, but not of a live one. Not in `/repo` (the global
allocator). -/
class Allocator where
  pick : Heap → Nat
  fresh : ∀ h, pick h ∉ h.cells.map Prod.fst

/-- The growth policy of vectors: `room` is the capacity a vector has after collecting the given
digits. Not in `/repo` (standard library and `smallvec`), used by
`/repo/src/apint/constructors.rs:174`. -/
structure Growth where
  room : List Digit → Nat
  enough : ∀ ds, ds.length ≤ room ds

/-- A computation that uses the heap, as the sequence of what it asks of the allocator and of the
memory; what it does next may depend on the answers. Not in `/repo` (how the model talks about the
heap). -/
inductive HM (α : Type) where
  | ret (a : α)
  | fault (f : Fault)
  /-- `alloc` of the global allocator, and moving the digits there -/
  | alloc (cap : Nat) (ds : List Digit) (k : Nat → HM α)
  /-- follow a pointer -/
  | get (p : Nat) (k : Block → HM α)
  /-- overwrite the digits of a buffer; the slice keeps its length -/
  | write (p : Nat) (ds : List Digit) (k : HM α)
  /-- `dealloc` of the global allocator, with the layout of `cap` digits -/
  | free (p cap : Nat) (k : HM α)

/-- First one computation, then another. Not in `/repo`. -/
def HM.bind {α β : Type} : HM α → (α → HM β) → HM β
  | .ret a, f => f a
  | .fault e, _ => .fault e
  | .alloc cap ds k, f => .alloc cap ds fun p => (k p).bind f
  | .get p k, f => .get p fun b => (k b).bind f
  | .write p ds k, f => .write p ds (k.bind f)
  | .free p cap k, f => .free p cap (k.bind f)

instance : Monad HM where
  pure := .ret
  bind := .bind

/-- Run a computation on a heap, with nobody else using it.  Following or freeing an address that
is not live, freeing with another capacity and writing another number of digits is undefined
behaviour. Not in `/repo`. -/
def HM.run [Allocator] {α : Type} : HM α → Heap → Run (α × Heap)
  | .ret a, h => .ok (a, h)
  | .fault f, _ => .error f
  | .alloc cap ds k, h =>
    (k (Allocator.pick h)).run ⟨(Allocator.pick h, ⟨cap, ds⟩) :: h.cells,
      h.log ++ [.alloc (Allocator.pick h) cap]⟩
  | .get p k, h =>
    match h.cells.find? (fun c => c.1 == p) with
    | some c => (k c.2).run h
    | none => .error .ub
  | .write p ds k, h =>
    match h.cells.find? (fun c => c.1 == p) with
    | some c =>
      if c.2.digits.length = ds.length then
        k.run ⟨h.cells.map (fun c => if c.1 = p then (c.1, ⟨c.2.cap, ds⟩) else c), h.log⟩
      else .error .ub
    | none => .error .ub
  | .free p cap k, h =>
    match h.cells.find? (fun c => c.1 == p) with
    | some c =>
      if c.2.cap = cap then
        k.run ⟨h.cells.filter (fun c => c.1 != p), h.log ++ [.free p cap]⟩
      else .error .ub
    | none => .error .ub

/-- `m h` is the run of `m` on `h`. -/
instance [Allocator] {α : Type} : CoeFun (HM α) (fun _ => Heap → Run (α × Heap)) := ⟨HM.run⟩

/-- A computation of the pure model. Not in `/repo`. -/
def liftR {α : Type} : Run α → HM α
  | .ok a => .ret a
  | .error f => .fault f

/-- Stop with a fault. Not in `/repo`. -/
def fault {α : Type} (f : Fault) : HM α := .fault f

/-- `alloc` of the global allocator. Not in `/repo`; called for
`/repo/src/apint/constructors.rs:174` and `Vec`s. -/
def halloc (cap : Nat) (ds : List Digit) : HM Nat := .alloc cap ds .ret

/-- Follow a pointer. For the slices made at `/repo/src/apint/utils.rs:279-302`. -/
def hget (p : Nat) : HM Block := .get p .ret

/-- `dealloc` of the global allocator, with the layout of `cap` digits. Called by
`/repo/src/apint/constructors.rs:28-33`. -/
def hfree (p cap : Nat) : HM Unit := .free p cap (.ret ())

/-- Overwrite the digits of a buffer; the slice keeps its length. For the slices made at
`/repo/src/apint/utils.rs:292-302`. -/
def hwrite (p : Nat) (ds : List Digit) : HM Unit := .write p ds (.ret ())

/-- `union ApIntData`, `/repo/src/apint/mod.rs:33-38`, with the variant written last. -/
inductive HData where
  | inl (d : Digit)
  | ext (p : Nat)
  deriving DecidableEq

/-- `struct ApInt`, `/repo/src/apint/mod.rs:26-31`. -/
structure HInt where
  len : BitWidth
  data : HData
  deriving DecidableEq

/-! ## `SmallVec<[Digit; 1]>` as far as `from_iter` uses it -/

/-- A small vector: one digit of inline room, or a spilled buffer with its capacity. Used in
`/repo/src/apint/constructors.rs:174`. -/
inductive SmallVec where
  | inl (ds : List Digit)
  | spilled (p cap : Nat) (len : Nat)

/-- `collect`, `/repo/src/apint/constructors.rs:174`. -/
def SmallVec.collect (A : Growth) (ds : List Digit) : HM SmallVec := do
  if A.room ds ≤ 1 then pure (.inl ds)
  else
    let p ← halloc (A.room ds) ds
    pure (.spilled p (A.room ds) ds.length)

/-- `Drop for SmallVec`. Used in `/repo/src/apint/constructors.rs:170-200`. -/
def SmallVec.drop : SmallVec → HM Unit
  | .inl _ => pure ()
  | .spilled p cap _ => hfree p cap

/-- `shrink_to_fit`, used in `/repo/src/apint/constructors.rs:192`: go back to the inline room if
that is enough, otherwise reallocate when there is unused capacity. -/
def SmallVec.shrinkToFit : SmallVec → HM SmallVec
  | .inl ds => pure (.inl ds)
  | .spilled p cap len => do
    let b ← hget p
    if len ≤ 1 then
      hfree p cap
      pure (.inl b.digits)
    else if len < cap then
      hfree p cap
      let q ← halloc len b.digits
      pure (.spilled q len len)
    else pure (.spilled p cap len)

/-- `capacity`, used in `/repo/src/apint/constructors.rs:193`. -/
def SmallVec.capacity : SmallVec → Nat
  | .inl _ => 1
  | .spilled _ cap _ => cap

/-- `len`, used in `/repo/src/apint/constructors.rs:175,194`. -/
def SmallVec.len : SmallVec → Nat
  | .inl ds => ds.length
  | .spilled _ _ len => len

/-- `as_ptr` followed by `mem::forget`, `/repo/src/apint/constructors.rs:195-196`.  A pointer into
the inline room would dangle. -/
def SmallVec.leak : SmallVec → HM Nat
  | .inl _ => fault .ub
  | .spilled p _ _ => pure p

/-- `to_vec().into_boxed_slice()`, `as_mut_ptr` and `mem::forget`,
`/repo/src/apint/casting.rs:20-24`: `to_vec` makes a vector with room for the digits, and
`into_boxed_slice` gives unused capacity back. -/
def boxedCopy (A : Growth) (ds : List Digit) : HM Nat := do
  let p ← halloc (A.room ds) ds
  if ds.length < A.room ds then
    hfree p (A.room ds)
    halloc ds.length ds
  else pure p

namespace HInt

/-- `len_digits`, `/repo/src/apint/utils.rs:102-104`. -/
def lenDigits (self : HInt) : Nat := self.len.requiredDigits

/-- `storage`, `/repo/src/apint/utils.rs:111-113`. -/
def storage (self : HInt) : Storage := self.len.storage

/-- `unsafe { self.data.inl }`. As in `/repo/src/apint/utils.rs:117-136`. -/
def readInl (self : HInt) : HM Digit :=
  match self.data with
  | .inl d => pure d
  | .ext _ => fault .ub

/-- `unsafe { self.data.ext }`. As in `/repo/src/apint/utils.rs:117-136`. -/
def readPtr (self : HInt) : HM Nat :=
  match self.data with
  | .inl _ => fault .ub
  | .ext p => pure p

/-- `as_digit_slice`, `/repo/src/apint/utils.rs:279-287`: a slice of `len_digits` digits at the
pointer. -/
def asDigitSlice (self : HInt) : HM (List Digit) :=
  match self.storage with
  | .inl => do
    let d ← self.readInl
    pure [d]
  | .ext => do
    let p ← self.readPtr
    let b ← hget p
    if self.lenDigits ≤ b.digits.length then pure (b.digits.take self.lenDigits) else fault .ub

/-- Writing through `as_digit_slice_mut`, `/repo/src/apint/utils.rs:292-305`. -/
def writeDigitSlice (self : HInt) (ds : List Digit) : HM HInt :=
  match self.storage with
  | .inl =>
    match ds with
    | [d] => pure { self with data := .inl d }
    | _ => fault .ub
  | .ext => do
    let p ← self.readPtr
    hwrite p ds
    pure self

/-- The integer with its digits read through the pointer. `as_digit_slice`,
`/repo/src/apint/utils.rs:279-289`. -/
def load (self : HInt) : HM ApInt :=
  match self.storage with
  | .inl => do
    let d ← self.readInl
    pure ⟨self.len, .inl d⟩
  | .ext => do
    let ds ← self.asDigitSlice
    pure ⟨self.len, .ext ds⟩

/-- The digits of `a` written to the storage of `self`, and the width of `a`. `as_digit_slice_mut`,
`/repo/src/apint/utils.rs:292-302`. -/
def store (self : HInt) (a : ApInt) : HM HInt := do
  let self ← self.writeDigitSlice (match a.data with | .inl d => [d] | .ext ds => ds)
  pure { self with len := a.len }

/-- A call that changes the digits in place; the new digits are those of the pure model.
`/repo/src/apint/utils.rs:127-136`, `/repo/src/apint/utils.rs:171-199`. -/
def inPlace {α : Type} (self : HInt) (f : ApInt → Run (α × ApInt)) : HM (α × HInt) := do
  let a ← self.load
  let (r, a) ← liftR (f a)
  let self ← self.store a
  pure (r, self)

/-- `drop_digits` and `Drop for ApInt`, `/repo/src/apint/constructors.rs:28-40`. -/
def dropDigits (self : HInt) : HM Unit :=
  match self.storage with
  | .inl => pure ()
  | .ext => do
    let len := self.lenDigits
    let p ← self.readPtr
    hfree p len

/-- `new_inl`, `/repo/src/apint/constructors.rs:52-58`. -/
def newInl (width : BitWidth) (digit : Digit) : HM HInt :=
  if width.storage = .inl then pure ⟨width, .inl digit⟩ else fault .panic

/-- `new_ext`, `/repo/src/apint/constructors.rs:71-82`. -/
def newExt (width : BitWidth) (ptr : Nat) : HM HInt :=
  if width.storage = .ext then pure ⟨width, .ext ptr⟩ else fault .panic

/-- `from_iter`, `/repo/src/apint/constructors.rs:170-200`.  The buffer is dropped at the end of
the function unless it is forgotten (line 196). -/
def fromIter (A : Growth) (digits : List Digit) : HM (Res HInt) := do
  let buffer ← SmallVec.collect A digits
  match digits with
  | [] => do
    buffer.drop
    pure (.error .expectedNonEmptyDigits)
  | [d] => do
    let r ← newInl BitWidth.w64 d
    buffer.drop
    pure (.ok r)
  | _ => do
    let bitwidth ← liftR (expect (BitWidth.new (buffer.len * 64)))
    let reqDigits := bitwidth.requiredDigits
    let buffer ← buffer.shrinkToFit
    if buffer.capacity ≠ reqDigits then fault .panic
    else if buffer.len ≠ reqDigits then fault .panic
    else do
      let p ← buffer.leak
      let r ← newExt bitwidth p
      pure (.ok r)

/-- `Clone for ApInt`, `/repo/src/apint/casting.rs:13-29`. -/
def clone (A : Growth) (self : HInt) : HM HInt :=
  match self.storage with
  | .inl => do
    let d ← self.readInl
    newInl self.len d
  | .ext => do
    let reqDigits := self.lenDigits
    let ds ← self.asDigitSlice
    if ds.length ≠ reqDigits then fault .panic
    else do
      let p ← boxedCopy A ds
      newExt self.len p

/-- `assign`, `/repo/src/apint/casting.rs:39-77`. -/
def assign (A : Growth) (self rhs : HInt) : HM HInt := do
  if self.lenDigits = rhs.lenDigits then
    let dst ← self.asDigitSlice
    let src ← rhs.asDigitSlice
    let ds ← liftR (copyFromSlice dst src)
    let self ← self.writeDigitSlice ds
    pure { self with len := rhs.len }
  else
    self.dropDigits
    match rhs.storage with
    | .inl =>
      let d ← rhs.readInl
      pure ⟨rhs.len, .inl d⟩
    | .ext =>
      let cloned ← rhs.clone A
      let p ← cloned.readPtr
      pure ⟨rhs.len, .ext p⟩

/-- `strict_assign`, `/repo/src/apint/casting.rs:90-102`. -/
def strictAssign (self rhs : HInt) : HM (Res Unit × HInt) := do
  if self.len ≠ rhs.len then
    pure (.error (.unmatchingBitwidth self.len rhs.len), self)
  else
    let dst ← self.asDigitSlice
    let src ← rhs.asDigitSlice
    let ds ← liftR (copyFromSlice dst src)
    let self ← self.writeDigitSlice ds
    pure (.ok (), self)

/-- `*self = value`: the old integer is dropped, then overwritten. As in
`/repo/src/apint/casting.rs:201-203`, with `Drop`, `/repo/src/apint/constructors.rs:36-41`. -/
def replace (self value : HInt) : HM HInt := do
  self.dropDigits
  pure value

/-- `try_forward_bin_mut_impl`, `/repo/src/utils.rs:30-37`: when the call reports an error the
integer, which is owned by the function, is dropped. -/
def tryForward (self : HInt) (op : HInt → HM (Res Unit × HInt)) : HM (Res HInt) := do
  let (r, this) ← op self
  match r with
  | .error e => do
    this.dropDigits
    pure (.error e)
  | .ok () => pure (.ok this)

/-- `truncate`, `/repo/src/apint/casting.rs:137-206`, with one level of recursion as in
`ApInt.truncateAux`.  The copy is dropped when its truncation reports an error (line 201). -/
def truncateAux (A : Growth) : Nat → HInt → BitWidth → HM (Res Unit × HInt)
  | 0, _, _ => fault .diverge
  | fuel + 1, self, targetWidth =>
    if targetWidth = self.len then pure (.ok (), self)
    else if targetWidth.toUsize > self.len.toUsize then
      pure (.error (.truncationBitWidthTooLarge targetWidth self.len), self)
    else if self.len.requiredDigits = targetWidth.requiredDigits then
      self.inPlace (fun a => a.truncateSameDigits targetWidth)
    else do
      let ds ← self.asDigitSlice
      let copy ← fromIter A (ds.take targetWidth.requiredDigits)
      let copy ← liftR (expect copy)
      if copy.len ≠ targetWidth then
        let (r, copy) ← truncateAux A fuel copy targetWidth
        match r with
        | .error e =>
          copy.dropDigits
          pure (.error e, self)
        | .ok () =>
          let self ← self.replace copy
          pure (.ok (), self)
      else
        let self ← self.replace copy
        pure (.ok (), self)

/-- `truncate`, `/repo/src/apint/casting.rs:137-206`. -/
def truncate (A : Growth) (self : HInt) (targetWidth : BitWidth) : HM (Res Unit × HInt) :=
  truncateAux A 2 self targetWidth

/-- `from_iter(..).and_then(|apint| apint.into_truncate(target_width))`,
`/repo/src/apint/casting.rs:283-287,389-393`. -/
def fromIterTruncated (A : Growth) (ds : List Digit) (targetWidth : BitWidth) :
    HM (Res HInt) := do
  match ← fromIter A ds with
  | .error e => pure (.error e)
  | .ok apint => apint.tryForward (fun x => x.truncate A targetWidth)

/-- `zero_extend`, `/repo/src/apint/casting.rs:240-291`. -/
def zeroExtend (A : Growth) (self : HInt) (targetWidth : BitWidth) : HM (Res Unit × HInt) :=
  if targetWidth = self.len then pure (.ok (), self)
  else if targetWidth.toUsize < self.len.toUsize then
    pure (.error (.extensionBitWidthTooSmall targetWidth self.len), self)
  else if self.len.requiredDigits = targetWidth.requiredDigits then
    pure (.ok (), { self with len := targetWidth })
  else do
    let additionalDigits ← liftR (csub targetWidth.requiredDigits self.len.requiredDigits)
    let ds ← self.asDigitSlice
    match ← fromIterTruncated A (ds ++ List.replicate additionalDigits Digit.ZERO) targetWidth with
    | .error e => pure (.error e, self)
    | .ok extendedClone => do
      let self ← self.replace extendedClone
      pure (.ok (), self)

/-- `sign_extend`, `/repo/src/apint/casting.rs:325-400`. -/
def signExtend (A : Growth) (self : HInt) (targetWidth : BitWidth) : HM (Res Unit × HInt) :=
  if targetWidth = self.len then pure (.ok (), self)
  else if targetWidth.toUsize < self.len.toUsize then
    pure (.error (.extensionBitWidthTooSmall targetWidth self.len), self)
  else do
    let a ← self.load
    let m ← liftR a.msb
    if !m then self.zeroExtend A targetWidth
    else if self.len.requiredDigits = targetWidth.requiredDigits then do
      let actualWidth := self.len
      let self : HInt := { self with len := targetWidth }
      let (r, self) ← self.inPlace (fun a => a.signExtendMsd actualWidth)
      match r with
      | .error e => pure (.error e, self)
      | .ok () => do
        let ((), self) ← self.inPlace (fun a => do
          let a ← a.clearUnusedBits
          pure ((), a))
        pure (.ok (), self)
    else do
      let additionalDigits ← liftR (csub targetWidth.requiredDigits self.len.requiredDigits)
      let actualWidth := self.len
      let (r, self) ← self.inPlace (fun a => a.signExtendMsd actualWidth)
      match r with
      | .error e => pure (.error e, self)
      | .ok () => do
        let ds ← self.asDigitSlice
        match ← fromIterTruncated A (ds ++ List.replicate additionalDigits Digit.ONES)
            targetWidth with
        | .error e => pure (.error e, self)
        | .ok extendedCopy => do
          let ((), self) ← self.inPlace (fun a => do
            let a ← a.clearUnusedBits
            pure ((), a))
          let self ← self.replace extendedCopy
          pure (.ok (), self)

/-- The `expect` of `zero_resize` and `sign_resize`, `/repo/src/apint/casting.rs:451-460,480-489`. -/
def expectDone (m : HM (Res Unit × HInt)) : HM (Res Unit × HInt) := do
  let (r, self) ← m
  let () ← liftR (expect r)
  pure (.ok (), self)

/-- `zero_resize`, `/repo/src/apint/casting.rs:443-461`. -/
def zeroResize (A : Growth) (self : HInt) (targetWidth : BitWidth) : HM (Res Unit × HInt) :=
  if targetWidth.toUsize ≤ self.len.toUsize then expectDone (self.truncate A targetWidth)
  else expectDone (self.zeroExtend A targetWidth)

/-- `sign_resize`, `/repo/src/apint/casting.rs:472-490`. -/
def signResize (A : Growth) (self : HInt) (targetWidth : BitWidth) : HM (Res Unit × HInt) :=
  if targetWidth.toUsize ≤ self.len.toUsize then expectDone (self.truncate A targetWidth)
  else expectDone (self.signExtend A targetWidth)

/-- `from_iter(..).expect(..).into_truncate(width).expect(..)`, the body of `repeat_digit`
(`/repo/src/apint/constructors.rs:220-243`) and of `random_with_width_using`
(`/repo/src/apint/rand_impl.rs:30-49`). -/
def ofDigits (A : Growth) (ds : List Digit) (width : BitWidth) : HM HInt := do
  let r ← fromIter A ds
  let a ← liftR (expect r)
  let r ← a.tryForward (fun x => x.truncate A width)
  liftR (expect r)

/-- `repeat_digit`, `/repo/src/apint/constructors.rs:220-243`. -/
def repeatDigit (A : Growth) (width : BitWidth) (digit : Digit) : HM HInt :=
  ofDigits A (List.replicate width.requiredDigits digit) width

/-- `one`, `/repo/src/apint/constructors.rs:251-253`. -/
def one (A : Growth) (width : BitWidth) : HM HInt := do
  let a ← newInl BitWidth.w64 1#64
  let (_, a) ← a.zeroResize A width
  pure a

/-- `signed_min_value`, `/repo/src/apint/constructors.rs:281-285`. -/
def signedMinValue (A : Growth) (width : BitWidth) : HM HInt := do
  let result ← repeatDigit A width Digit.ZERO
  let (_, result) ← result.inPlace (fun a => done a.setMsb)
  pure result

/-- `signed_max_value`, `/repo/src/apint/constructors.rs:289-293`. -/
def signedMaxValue (A : Growth) (width : BitWidth) : HM HInt := do
  let result ← repeatDigit A width Digit.ONES
  let (_, result) ← result.inPlace (fun a => done a.unsetMsb)
  pure result

/-- `From<[u64; n]>`, `/repo/src/apint/constructors.rs:378-395`. -/
def fromArray (A : Growth) (val : List (BitVec 64)) : HM HInt := do
  let r ← fromIter A val.reverse
  liftR (expect r)

/-- `from_u128`, `/repo/src/apint/constructors.rs:149-153`. -/
def fromU128 (A : Growth) (val : BitVec 128) : HM HInt :=
  let hi := (val >>> 64).setWidth 64
  let lo := (val &&& ((1#128 <<< 64) - 1#128)).setWidth 64
  fromArray A [hi, lo]

/-- An integer made by parsing.  The digits are those of the pure model; the code collects them in
a vector that safe code owns and ends in `from_iter`, `/repo/src/apint/serialization.rs:228`,
`:270`, `:332`. -/
def ofPure (A : Growth) (a : ApInt) : HM HInt :=
  match a.data with
  | .inl d => newInl a.len d
  | .ext ds => do
    match ← fromIter A ds with
    | .error _ => fault .panic
    | .ok x => pure { x with len := a.len }

end HInt

/-! ## Programs -/

/-- `Un` on an integer with a heap buffer: the width changes may reallocate, the others work in
place. Width changes: `/repo/src/apint/casting.rs:137-490`. -/
def Un.hexec (A : Growth) : Un → HInt → HM (Res Unit × HInt)
  | .truncate t, x => x.truncate A t
  | .zeroExtend t, x => x.zeroExtend A t
  | .signExtend t, x => x.signExtend A t
  | .zeroResize t, x => x.zeroResize A t
  | .signResize t, x => x.signResize A t
  | o, x => x.inPlace o.exec

/-- A method returning an integer that cannot report an error. As
`/repo/src/apint/constructors.rs:246-293`. -/
def hfine (m : HM HInt) : HM (Res HInt) := do
  let c ← m
  pure (.ok c)

/-- Constructors with a heap, see `Make.exec`. `/repo/src/apint/constructors.rs:90-406`. -/
def Make.hexec (A : Growth) : Make → HM (Res HInt)
  | .zero t => hfine (HInt.repeatDigit A t Digit.ZERO)
  | .one t => hfine (HInt.one A t)
  | .allUnset t => hfine (HInt.repeatDigit A t Digit.ZERO)
  | .allSet t => hfine (HInt.repeatDigit A t Digit.ONES)
  | .unsignedMin t => hfine (HInt.repeatDigit A t Digit.ZERO)
  | .unsignedMax t => hfine (HInt.repeatDigit A t Digit.ONES)
  | .signedMin t => hfine (HInt.signedMinValue A t)
  | .signedMax t => hfine (HInt.signedMaxValue A t)
  | .bool b => hfine (HInt.newInl BitWidth.w1 (if b then 1#64 else 0#64))
  | .u8 v => hfine (HInt.newInl BitWidth.w8 (v.setWidth 64))
  | .i8 v => hfine (HInt.newInl BitWidth.w8 (v.setWidth 64))
  | .u16 v => hfine (HInt.newInl BitWidth.w16 (v.setWidth 64))
  | .i16 v => hfine (HInt.newInl BitWidth.w16 (v.setWidth 64))
  | .u32 v => hfine (HInt.newInl BitWidth.w32 (v.setWidth 64))
  | .i32 v => hfine (HInt.newInl BitWidth.w32 (v.setWidth 64))
  | .u64 v => hfine (HInt.newInl BitWidth.w64 v)
  | .i64 v => hfine (HInt.newInl BitWidth.w64 v)
  | .u128 v => hfine (HInt.fromU128 A v)
  | .i128 v => hfine (HInt.fromU128 A v)
  | .array v vs => hfine (HInt.fromArray A (v :: vs))
  | .digits ds => HInt.fromIter A ds
  | .parse k s => do
    match ← liftR (ApInt.fromStrRadix (2 ^ (k.val + 1)) s) with
    | .error e => pure (.error e)
    | .ok a => hfine (HInt.ofPure A a)
  | .random t rng => hfine (HInt.ofDigits A (Rng.take rng t.requiredDigits) t)

/-- The live integers of a program, with their heap. `/repo/src/apint/mod.rs:26-38`. -/
abbrev HBank := List HInt

/-- Bind a new integer. Client code: `let z = …;`, not in `/repo`. -/
def hpush (b : HBank) (m : HM (Res HInt)) : HM (Res Out × HBank) := do
  match ← m with
  | .ok x => pure (.ok .unit, b ++ [x])
  | .error e => pure (.error e, b)

/-- Store the integer left behind by a call. Client code: `x.f(…)` with `&mut self`, not in `/repo`.
-/
def hstore (b : HBank) (x : Nat) (m : HM (Res Unit × HInt)) : HM (Res Out × HBank) := do
  let (e, y) ← m
  pure (e.map fun _ => .unit, b.set x y)

/-- One call, as `Instr.exec`.  `let z = x.clone().into_op()` drops the clone when the call
reports an error. The calls are those cited at `Program.lean`. -/
def Instr.hexec (A : Growth) (i : Instr) (b : HBank) : HM (Res Out × HBank) :=
  let one (x : Nat) (k : HInt → HM (Res Out × HBank)) : HM (Res Out × HBank) :=
    match b[x]? with
    | some a => k a
    | none => pure (.ok .unit, b)
  let two (x y : Nat) (k : HInt → HInt → HM (Res Out × HBank)) : HM (Res Out × HBank) :=
    match b[x]?, b[y]? with
    | some a, some c => k a c
    | _, _ => pure (.ok .unit, b)
  match i with
  | .make m => hpush b (m.hexec A)
  | .clone x => one x fun a => hpush b (do
      let y ← a.clone A
      pure (.ok y))
  | .drop x => one x fun a => do
      a.dropDigits
      pure (.ok .unit, b.eraseIdx x)
  | .assign x y => two x y fun a c => hstore b x (do
      let a ← a.assign A c
      pure (.ok (), a))
  | .strictAssign x y => two x y fun a c => hstore b x (a.strictAssign c)
  | .un o x => one x fun a => hstore b x (o.hexec A a)
  | .intoUn o x => one x fun a => hpush b (do
      let a ← a.clone A
      a.tryForward (o.hexec A))
  | .alter o x => one x fun a => hstore b x (a.inPlace o.exec)
  | .bin o x y => two x y fun a c => hstore b x (do
      let c ← c.load
      a.inPlace (fun a => o.exec a c))
  | .intoBin o x y => two x y fun a c => hpush b (do
      let a ← a.clone A
      let c ← c.load
      a.tryForward (fun a => a.inPlace (fun a => o.exec a c)))
  | .opAssign o x y => two x y fun a c => hstore b x (do
      let c ← c.load
      a.inPlace (fun a => done (o.execAssign a c)))
  | .op o x y => two x y fun a c => hpush b (do
      let a ← a.clone A
      let c ← c.load
      let ((), a) ← a.inPlace (fun a => do
        let a ← o.exec a c
        pure ((), a))
      pure (.ok a))
  | .opShlAssign s x => one x fun a => hstore b x (a.inPlace (fun a => done (a.opShlAssign s)))
  | .opShl s x => one x fun a => hpush b (do
      let a ← a.clone A
      let ((), a) ← a.inPlace (fun a => do
        let a ← a.opShl s
        pure ((), a))
      pure (.ok a))
  | .pair o x y => two x y fun a c => do
      let a' ← a.load
      let c' ← c.load
      let (e, a', c') ← liftR (o.exec a' c')
      let a ← a.store a'
      let b := b.set x a
      match b[y]? with
      | some c => do
        let c ← c.store c'
        pure (e.map fun _ => .unit, b.set y c)
      | none => pure (e.map fun _ => .unit, b)
  | .ask q x => one x fun a => do
      let a ← a.load
      let r ← liftR (q.exec a)
      pure (r, b)
  | .ask2 q x y => two x y fun a c => do
      let a ← a.load
      let c ← c.load
      let r ← liftR (q.exec a c)
      pure (r, b)

/-- A program, as `run`: the answers of the calls that returned, and the bank and heap at the end
or the fault that stopped the program. Client code, not in `/repo`. -/
def hrun [Allocator] (A : Growth) : List Instr → HBank → Heap → List (Res Out) × Run (HBank × Heap)
  | [], b, h => ([], .ok (b, h))
  | i :: is, b, h =>
    match (i.hexec A b) h with
    | .ok ((r, b), h) =>
      let (rs, e) := hrun A is b h
      (r :: rs, e)
    | .error f => ([], .error f)

/-- The end of the scope: every live integer is dropped. `Drop for ApInt`,
`/repo/src/apint/constructors.rs:36-41`. -/
def dropAll : HBank → HM Unit
  | [] => pure ()
  | x :: b => do
    x.dropDigits
    dropAll b

end Verif

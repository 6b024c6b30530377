#!/usr/bin/env python3
"""Generates lean/Verif/Model/UInt.lean, SInt.lean and StdOps.lean.

The wrapper methods all have the same few shapes; the line numbers cited in the comments are
looked up in /repo/src.
"""
import re

OUT = "/verif/lean/Verif/Model/"


def lines_of(path):
    return open("/repo/src/" + path).read().split("\n")


def fn_lines(src, name, after=0):
    """1-based first and last line of `fn name` (brace matched)."""
    pat = re.compile(r"^\s*(pub )?fn " + name + r"\b")
    for i in range(after, len(src)):
        if pat.match(src[i]):
            depth = 0
            for j in range(i, len(src)):
                depth += src[j].count("{") - src[j].count("}")
                if depth == 0 and "{" in "".join(src[i:j + 1]):
                    return i + 1, j + 1
    raise Exception(name)


def camel(s):
    p = s.split("_")
    return p[0] + "".join(x[:1].upper() + x[1:] for x in p[1:])


def gen(T, rust, path, signed):
    src = lines_of(path)
    o = []
    F = "i" if signed else "u"

    def cite(name, impl=None):
        after = 0
        if impl:
            after = next(i for i, l in enumerate(src) if impl in l)
        a, b = fn_lines(src, name, after)
        return f"`/repo/src/{path}:{a}-{b}`"

    def d(name, sig, body, rname=None, impl=None, note=""):
        rname = rname or name
        label = f"`{impl.strip('{ ')}`, `{rname}`" if impl else f"`{rust}::{rname}`"
        o.append(f"/-- {label}, {cite(rname, impl)}{note}. -/")
        o.append(f"def {camel(name)} {sig} :=")
        for l in body.split("\n"):
            o.append("  " + l)
        o.append("")

    o.append(f"""/-!
# The {'signed' if signed else 'unsigned'} wrapper type `{rust}` (`/repo/src/{path}`)

Generated by `/verif/tools/gen_wrappers.py`.
-/

namespace Verif

/-- `struct {rust}`, `/repo/src/{path}:{next(i for i,l in enumerate(src) if l.startswith('pub struct'))+1}`.""" +
("  (Named `SInt` here because `Int` is Lean's type of integers.)" if signed else "") + f""" -/
structure {T} where
  value : ApInt
  deriving DecidableEq

namespace {T}

/-- `From<ApInt> for {rust}`, {cite('from', f'impl From<ApInt> for {rust}')}, under a function that
returns an `ApInt`. -/
def lift (r : Run ApInt) : Run {T} := do
  let a ← r
  pure ⟨a⟩

/-- `.map({rust}::from)` on a result. -/
def mapRes : Res ApInt → Res {T}
  | .ok a => .ok ⟨a⟩
  | .error e => .error e

/-- `.map({rust}::from)` after a function that returns a result. -/
def liftRes (r : Run (Res ApInt)) : Run (Res {T}) := do
  let a ← r
  pure (mapRes a)

/-- A method called on the field: `self.value.f(…)` with `&mut self` that may fail. -/
def liftMut (r : Run (Res Unit × ApInt)) : Run (Res Unit × {T}) := do
  let (x, a) ← r
  pure (x, ⟨a⟩)
""")
    Z = f"(self : {T})"
    ZR = f"(self rhs : {T})"
    d("width", f"{Z} : BitWidth", "self.value.width")
    d("into_apint", f"{Z} : ApInt", "self.value")
    o.append("/-! ## Constructors -/\n")
    d("from_bool", f"(bit : Bool) : Run {T}", "lift (ApInt.fromBool bit)")
    for n in (8, 16, 32, 64, 128):
        d(f"from_{F}{n}", f"(val : BitVec {n}) : Run {T}", f"lift (ApInt.{camel(f'from_{F}{n}')} val)")
    d("zero", f"(width : BitWidth) : Run {T}", "lift (ApInt.zero width)")
    if signed:
        d("one", f"(width : BitWidth) : Run (Option {T})",
          "if width = BitWidth.w1 then .ok none\nelse do\n  let a ← lift (ApInt.one width)\n  pure (some a)")
    else:
        d("one", f"(width : BitWidth) : Run {T}", "lift (ApInt.one width)")
    d("all_unset", f"(width : BitWidth) : Run {T}", f"{T}.zero width")
    d("all_set", f"(width : BitWidth) : Run {T}", "lift (ApInt.allSet width)")
    s = "signed" if signed else "unsigned"
    d("min_value", f"(width : BitWidth) : Run {T}", f"lift (ApInt.{s}MinValue width)")
    d("max_value", f"(width : BitWidth) : Run {T}", f"lift (ApInt.{s}MaxValue width)")
    im = f"impl From<[{F}64; $n]> for {rust} {{"
    d("from_array", f"(val : List (BitVec 64)) : Run {T}", "lift (ApInt.fromArray val)", rname="from",
      impl=im)
    o.append("/-! ## Predicates -/\n")
    d("is_zero", f"{Z} : Run Bool", "self.value.isZero")
    if signed:
        d("is_one", f"{Z} : Run Bool", "if self.width = BitWidth.w1 then .ok false else self.value.isOne")
    else:
        d("is_one", f"{Z} : Run Bool", "self.value.isOne")
    d("is_even", f"{Z} : Run Bool", "self.value.isEven")
    d("is_odd", f"{Z} : Run Bool", "self.value.isOdd")
    if signed:
        d("msb", f"{Z} : Run Bool", "self.value.msb")
        d("wrapping_neg", f"{Z} : Run {T}", "lift self.value.wrappingNeg")
        d("is_positive", f"{Z} : Run Bool", "do\nlet b ← self.msb\npure (!b)")
        d("is_negative", f"{Z} : Run Bool", "do\nlet b ← self.isPositive\npure (!b)")
        d("signum", f"{Z} : Run Int",
          "do\nlet z ← self.isZero\nif z then .ok 0\nelse do\n  let n ← self.isNegative\n  if n then .ok (-1) else .ok 1")
        d("wrapping_abs", f"{Z} : Run {T}", "do\nlet b ← self.msb\nif b then self.wrappingNeg else .ok self")
        d("into_abs", f"{Z} : Run {T}", "forwardMutImpl self wrappingAbs")
    o.append("/-! ## Comparison -/\n")
    for c in ("lt", "le", "gt", "ge"):
        d(f"checked_{c}", f"{ZR} : Run (Res Bool)",
          f"self.value.{camel('checked_' + ('s' if signed else 'u') + c)} rhs.value")
    im = f"impl PartialOrd for {rust} {{"
    d("partial_cmp", f"{ZR} : Run (Option Ordering)",
      "if self.width ≠ rhs.width then .ok none\nelse do\n  let r ← self.checkedLt rhs\n  let lt ← expect r\n"
      "  if lt then .ok (some .lt)\n  else do\n    let e ← self.value.eq rhs.value\n"
      "    if e then .ok (some .eq) else .ok (some .gt)", impl=im)
    o.append("/-- `Result::unwrap_or(false)`. -/\ndef unwrapOrFalse : Res Bool → Bool\n  | .ok b => b\n  | .error _ => false\n")
    for c in ("lt", "le", "gt", "ge"):
        d(c, f"{ZR} : Run Bool", f"do\nlet r ← self.{camel('checked_' + c)} rhs\npure (unwrapOrFalse r)", impl=im)
    o.append("/-! ## Primitive conversions -/\n")
    d("resize_to_bool", f"{Z} : Run Bool", "self.value.resizeToBool")
    for n in (8, 16, 32, 64, 128):
        d(f"resize_to_{F}{n}", f"{Z} : Run (BitVec {n})", f"self.value.{camel(f'resize_to_{F}{n}')}")
    d("try_to_bool", f"{Z} : Run (Res Bool)", "self.value.tryToBool")
    for n in (8, 16, 32, 64, 128):
        d(f"try_to_{F}{n}", f"{Z} : Run (Res (BitVec {n}))", f"self.value.{camel(f'try_to_{F}{n}')}")
    o.append("/-! ## Shifts -/\n")
    sh = "Ashr" if signed else "Lshr"
    d("wrapping_shl_assign", f"{Z} (s : Nat) : Run (Res Unit × {T})", "liftMut (self.value.wrappingShlAssign s)")
    d("into_wrapping_shl", f"{Z} (s : Nat) : Run (Res {T})", "liftRes (self.value.intoWrappingShl s)")
    d("wrapping_shr_assign", f"{Z} (s : Nat) : Run (Res Unit × {T})", f"liftMut (self.value.wrapping{sh}Assign s)")
    d("into_wrapping_shr", f"{Z} (s : Nat) : Run (Res {T})", f"liftRes (self.value.intoWrapping{sh} s)")
    o.append("/-! ## Random values -/\n")
    d("random_with_width_using", f"(width : BitWidth) (rng : Rng) : Run ({T} × Rng)",
      "do\nlet (a, rng) ← ApInt.randomWithWidthUsing width rng\npure (⟨a⟩, rng)")
    d("randomize_using", f"{Z} (rng : Rng) : Run ({T} × Rng)",
      "do\nlet (a, rng) ← self.value.randomizeUsing rng\npure (⟨a⟩, rng)")
    o.append("/-! ## Assignment and width changes -/\n")
    d("assign", f"{ZR} : Run {T}", "lift (self.value.assign rhs.value)")
    d("strict_assign", f"{ZR} : Run (Res Unit × {T})", "liftMut (self.value.strictAssign rhs.value)")
    ext = "sign" if signed else "zero"
    d("truncate", f"{Z} (targetWidth : BitWidth) : Run (Res Unit × {T})", "liftMut (self.value.truncate targetWidth)")
    d("into_truncate", f"{Z} (targetWidth : BitWidth) : Run (Res {T})", "tryForwardBinMutImpl self targetWidth truncate")
    d("extend", f"{Z} (targetWidth : BitWidth) : Run (Res Unit × {T})", f"liftMut (self.value.{ext}Extend targetWidth)")
    d("into_extend", f"{Z} (targetWidth : BitWidth) : Run (Res {T})", "tryForwardBinMutImpl self targetWidth extend")
    d("resize", f"{Z} (targetWidth : BitWidth) : Run {T}", f"lift (self.value.{ext}Resize targetWidth)")
    d("into_resize", f"{Z} (targetWidth : BitWidth) : Run {T}", "forwardBinMutImpl self targetWidth resize")
    o.append("/-! ## Bitwise operations -/\n")
    d("bitnot", f"{Z} : Run {T}", "lift self.value.bitnot")
    d("into_bitnot", f"{Z} : Run {T}", "forwardMutImpl self bitnot")
    for n in ("bitand", "bitor", "bitxor"):
        d(n + "_assign", f"{ZR} : Run (Res Unit × {T})", f"liftMut (self.value.{n}Assign rhs.value)")
        d("into_" + n, f"{ZR} : Run (Res {T})", f"tryForwardBinMutImpl self rhs {n}Assign")
    d("get_bit_at", f"{Z} (pos : Nat) : Run (Res Bool)", "self.value.getBitAt pos")
    for n in ("set", "unset", "flip"):
        d(n + "_bit_at", f"{Z} (pos : Nat) : Run (Res Unit × {T})", f"liftMut (self.value.{n}BitAt pos)")
    d("set_all", f"{Z} : Run {T}", "lift self.value.setAll")
    d("is_all_set", f"{Z} : Run Bool", "self.value.isAllSet")
    d("unset_all", f"{Z} : Run {T}", "lift self.value.unsetAll")
    d("is_all_unset", f"{Z} : Run Bool", "self.value.isAllUnset")
    d("flip_all", f"{Z} : Run {T}", "lift self.value.flipAll")
    if signed:
        for n in ("set", "unset", "flip"):
            d(n + "_msb", f"{Z} : Run {T}", f"lift self.value.{n}Msb")
    for n in ("count_ones", "count_zeros", "leading_zeros", "trailing_zeros"):
        d(n, f"{Z} : Run Nat", f"self.value.{camel(n)}")
    o.append("/-! ## Arithmetic -/\n")
    if not signed:
        d("wrapping_neg", f"{Z} : Run {T}", "lift self.value.wrappingNeg")
    d("into_wrapping_neg", f"{Z} : Run {T}", "forwardMutImpl self wrappingNeg")
    p = "s" if signed else "u"
    for n, m in (("add", "Add"), ("sub", "Sub"), ("mul", "Mul"), ("div", p.upper() + "div"), ("rem", p.upper() + "rem")):
        d(f"wrapping_{n}_assign", f"{ZR} : Run (Res Unit × {T})", f"liftMut (self.value.wrapping{m}Assign rhs.value)")
        d(f"into_wrapping_{n}", f"{ZR} : Run (Res {T})", f"tryForwardBinMutImpl self rhs {camel(f'wrapping_{n}_assign')}")
    o.append("/-! ## Formatting -/\n")
    for n in ("Binary", "Octal", "LowerHex", "UpperHex"):
        d(f"fmt{n}", f"{Z} : Run (List Char)", f"self.value.fmt{n}", rname="fmt", impl=f"impl fmt::{n} for {rust} {{")
    o.append(f"end {T}\n")
    return o


u = ["import Verif.Model.Div", "import Verif.Model.ToPrim", "import Verif.Model.Strings",
     "import Verif.Model.Rand", ""] + gen("UInt", "UInt", "uint.rs", False) + ["end Verif", ""]
open(OUT + "UInt.lean", "w").write("\n".join(u))
s = ["import Verif.Model.UInt", ""] + gen("SInt", "Int", "int.rs", True)
usrc, isrc = lines_of("uint.rs"), lines_of("int.rs")
a, b = fn_lines(isrc, "into_unsigned")
c, e = fn_lines(usrc, "into_signed")
s += [f"/-- `Int::into_unsigned`, `/repo/src/int.rs:{a}-{b}`. -/",
      "def SInt.intoUnsigned (self : SInt) : UInt := ⟨self.value⟩", "",
      f"/-- `UInt::into_signed`, `/repo/src/uint.rs:{c}-{e}`. -/",
      "def UInt.intoSigned (self : UInt) : SInt := ⟨self.value⟩", "", "end Verif", ""]
open(OUT + "SInt.lean", "w").write("\n".join(s))

# Operators
src = lines_of("std_ops.rs")
o = ["import Verif.Model.SInt", "", """/-!
# Operators (`/repo/src/std_ops.rs`)

Generated by `/verif/tools/gen_wrappers.py`.  The owned and borrowed forms of an operator differ
only in who owns the left operand.  Inherent methods take precedence over trait methods of the
same name, so `bitand_assign` inside `impl BitAndAssign` is the inherent one.
-/

namespace Verif

/-- `*self.f(…).unwrap()` for an assigning operator: panics when the method reports an error. -/
def unwrapMut {α : Type} (r : Run (Res Unit × α)) : Run α := do
  let (x, a) ← r
  let () ← expect x
  pure a

/-- `self.f(…).unwrap()` for an operator that returns a value. -/
def unwrapRes {α : Type} (r : Run (Res α)) : Run α := do
  let x ← r
  expect x
"""]


def impl_lines(pat, lo, hi):
    for i in range(lo, hi):
        if pat in src[i]:
            depth = 0
            for j in range(i, len(src)):
                depth += src[j].count("{") - src[j].count("}")
                if depth == 0 and "{" in "".join(src[i:j + 1]):
                    return i + 1, j + 1
    raise Exception(pat)


split = next(i for i, l in enumerate(src) if "macro_rules! signed_std_ops" in l)
start = next(i for i, l in enumerate(src) if "macro_rules! common_std_ops" in l)
end = len(src)


def op(T, name, trait, sig, body, lo, hi):
    a, b = impl_lines(trait, lo, hi)
    t = trait.replace("impl", "").strip()
    o.append(f"/-- `{t.split(' for')[0].strip()}` for `{'Int' if T == 'SInt' else T}`, `/repo/src/std_ops.rs:{a}-{b}`. -/")
    o.append(f"def {T}.{name} {sig} := {body}")
    o.append("")


for T in ("ApInt", "UInt", "SInt"):
    Z, ZR = f"(self : {T})", f"(self rhs : {T})"
    o.append(f"/-! ## `{'Int' if T == 'SInt' else T}` -/\n")
    op(T, "opNot", "impl Not for", f"{Z} : Run {T}", "self.intoBitnot", start, split)
    op(T, "opNeg", "impl Neg for", f"{Z} : Run {T}", "self.intoWrappingNeg", start, split)
    op(T, "opShl", "impl<S> Shl<S> for", f"{Z} (s : Nat) : Run {T}", "unwrapRes (self.intoWrappingShl s)", start, split)
    op(T, "opShlAssign", "impl<S> ShlAssign<S> for", f"{Z} (s : Nat) : Run {T}", "unwrapMut (self.wrappingShlAssign s)", start, split)
    for tr, into, asg in (("BitAnd", "intoBitand", "bitandAssign"), ("BitOr", "intoBitor", "bitorAssign"),
                          ("BitXor", "intoBitxor", "bitxorAssign"), ("Add", "intoWrappingAdd", "wrappingAddAssign"),
                          ("Sub", "intoWrappingSub", "wrappingSubAssign"), ("Mul", "intoWrappingMul", "wrappingMulAssign")):
        op(T, "op" + tr, f" {tr}<&'", f"{ZR} : Run {T}", f"unwrapRes (self.{into} rhs)", start, split)
        op(T, "op" + tr + "Assign", f" {tr}Assign<&'", f"{ZR} : Run {T}", f"unwrapMut (self.{asg} rhs)", start, split)
    if T != "ApInt":
        op(T, "opShr", "impl<S> Shr<S> for", f"{Z} (s : Nat) : Run {T}", "unwrapRes (self.intoWrappingShr s)", split, end)
        op(T, "opShrAssign", "impl<S> ShrAssign<S> for", f"{Z} (s : Nat) : Run {T}", "unwrapMut (self.wrappingShrAssign s)", split, end)
        for tr, n in (("Div", "Div"), ("Rem", "Rem")):
            op(T, "op" + tr, f" {tr}<&'", f"{ZR} : Run {T}", f"unwrapRes (self.intoWrapping{n} rhs)", split, end)
            op(T, "op" + tr + "Assign", f" {tr}Assign<&'", f"{ZR} : Run {T}", f"unwrapMut (self.wrapping{n}Assign rhs)", split, end)
o += ["end Verif", ""]
open(OUT + "StdOps.lean", "w").write("\n".join(o))

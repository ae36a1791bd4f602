import Verif.Model.Iter

/-!
# The iterators when a call unwinds

`Model/Iter.lean` says nothing about the iterator after a panic.  Here every `&mut self` method returns its outcome and, in
either case, the iterator it leaves behind, as seen by a caller who catches the panic.  An assignment such as
`self.current = Step::forward(self.current, 1)` evaluates its right side first, so a panic there leaves the field as it was.
`Copy` elements have no destructors; panics while unwinding (which abort) cannot occur.
-/

namespace Rangetools
variable {T : Type}

/-- Forgets the iterator left behind by a panic. -/
def forget {α σ : Type} : Res α × σ → Res (α × σ)
  | (.ok a, s) => .ok (a, s)
  | (.panic m, _) => .panic m

section
variable [LinearOrder T]

namespace BoundedRangeIter

/-- `next`, /repo/src/bounded_range.rs:178-186. -/
def nextU (S : Step T) (self : BoundedRangeIter T) : Res (Option T) × BoundedRangeIter T :=
  if self.current > self.last then (.ok none, self)
  else match S.forward self.current 1 with
    | .ok current => (.ok (some self.current), { self with current })
    | .panic m => (.panic m, self)

/-- `next_back`, /repo/src/bounded_range.rs:228-236. -/
def nextBackU (S : Step T) (self : BoundedRangeIter T) : Res (Option T) × BoundedRangeIter T :=
  if self.current > self.last then (.ok none, self)
  else match S.backward self.last 1 with
    | .ok last => (.ok (some self.last), { self with last })
    | .panic m => (.panic m, self)

/-- `nth`, /repo/src/bounded_range.rs:210-213. -/
def nthU (S : Step T) (self : BoundedRangeIter T) (n : Nat) : Res (Option T) × BoundedRangeIter T :=
  match S.forward self.current n with
  | .ok current => { self with current }.nextU S
  | .panic m => (.panic m, self)

/-- `nth_back`, /repo/src/bounded_range.rs:238-241. -/
def nthBackU (S : Step T) (self : BoundedRangeIter T) (n : Nat) : Res (Option T) × BoundedRangeIter T :=
  match S.backward self.last n with
  | .ok last => { self with last }.nextBackU S
  | .panic m => (.panic m, self)

end BoundedRangeIter

namespace BoundedSetIter

/-- The loop at /repo/src/bounded_set.rs:124-131 (and 188-195 on the reversed list). -/
def popEmptyU (p : Platform) (S : Step T) : List (BoundedRangeIter T) → Res Unit × List (BoundedRangeIter T)
  | [] => (.ok (), [])
  | i :: is => match i.len p S with
      | .ok l => if l == 0 then popEmptyU p S is else (.ok (), i :: is)
      | .panic m => (.panic m, i :: is)

/-- `next`, /repo/src/bounded_set.rs:123-133. -/
def nextU (p : Platform) (S : Step T) (self : BoundedSetIter T) : Res (Option T) × BoundedSetIter T :=
  match popEmptyU p S self.rangeIters with
  | (.panic m, is) => (.panic m, ⟨is⟩)
  | (.ok _, []) => (.ok none, ⟨[]⟩)
  | (.ok _, i :: is) => ((i.nextU S).1, ⟨(i.nextU S).2 :: is⟩)

/-- `next_back`, /repo/src/bounded_set.rs:187-197. -/
def nextBackU (p : Platform) (S : Step T) (self : BoundedSetIter T) : Res (Option T) × BoundedSetIter T :=
  match popEmptyU p S self.rangeIters.reverse with
  | (.panic m, is) => (.panic m, ⟨is.reverse⟩)
  | (.ok _, []) => (.ok none, ⟨[]⟩)
  | (.ok _, i :: is) => ((i.nextBackU S).1, ⟨((i.nextBackU S).2 :: is).reverse⟩)

/-- The loop at /repo/src/bounded_set.rs:163-170 (and 200-207 on the reversed list); `n -= len` comes before the
removal. -/
def skipU (p : Platform) (S : Step T) : List (BoundedRangeIter T) → Nat → Res Nat × List (BoundedRangeIter T)
  | [], n => (.ok n, [])
  | i :: is, n => match i.len p S with
      | .ok l =>
          if l ≤ n then
            match p.subUsize n l with
            | .ok n => skipU p S is n
            | .panic m => (.panic m, i :: is)
          else (.ok n, i :: is)
      | .panic m => (.panic m, i :: is)

/-- `nth`, /repo/src/bounded_set.rs:162-172. -/
def nthU (p : Platform) (S : Step T) (self : BoundedSetIter T) (n : Nat) : Res (Option T) × BoundedSetIter T :=
  match skipU p S self.rangeIters n with
  | (.panic m, is) => (.panic m, ⟨is⟩)
  | (.ok _, []) => (.ok none, ⟨[]⟩)
  | (.ok n, i :: is) => ((i.nthU S n).1, ⟨(i.nthU S n).2 :: is⟩)

/-- `nth_back`, /repo/src/bounded_set.rs:199-209. -/
def nthBackU (p : Platform) (S : Step T) (self : BoundedSetIter T) (n : Nat) : Res (Option T) × BoundedSetIter T :=
  match skipU p S self.rangeIters.reverse n with
  | (.panic m, is) => (.panic m, ⟨is.reverse⟩)
  | (.ok _, []) => (.ok none, ⟨[]⟩)
  | (.ok n, i :: is) => ((i.nthBackU S n).1, ⟨((i.nthBackU S n).2 :: is).reverse⟩)

end BoundedSetIter
end

namespace LowerBoundedRangeIter

/-- `next`, /repo/src/lower_bounded_range.rs:115-119. -/
def nextU (S : Step T) (self : LowerBoundedRangeIter T) : Res (Option T) × LowerBoundedRangeIter T :=
  match S.forward self.current 1 with
  | .ok current => (.ok (some self.current), ⟨current⟩)
  | .panic m => (.panic m, self)

/-- `nth`, /repo/src/lower_bounded_range.rs:125-128. -/
def nthU (S : Step T) (self : LowerBoundedRangeIter T) (n : Nat) : Res (Option T) × LowerBoundedRangeIter T :=
  match S.forward self.current n with
  | .ok current => LowerBoundedRangeIter.nextU S ⟨current⟩
  | .panic m => (.panic m, self)

end LowerBoundedRangeIter

namespace LowerBoundedSetIter
variable [LinearOrder T]

/-- `next`, /repo/src/lower_bounded_set.rs:121-123. -/
def nextU (p : Platform) (S : Step T) (self : LowerBoundedSetIter T) : Res (Option T) × LowerBoundedSetIter T :=
  match self.setIter.nextU p S with
  | (.panic m, setIter) => (.panic m, { self with setIter })
  | (.ok (some t), setIter) => (.ok (some t), { self with setIter })
  | (.ok none, setIter) => ((self.rangeIter.nextU S).1, ⟨setIter, (self.rangeIter.nextU S).2⟩)

/-- `nth`, /repo/src/lower_bounded_set.rs:129-134. -/
def nthU (p : Platform) (S : Step T) (self : LowerBoundedSetIter T) (n : Nat) :
    Res (Option T) × LowerBoundedSetIter T :=
  match self.setIter.len p S with
  | .panic m => (.panic m, self)
  | .ok boundedSize =>
      match self.setIter.nthU p S n with
      | (.panic m, setIter) => (.panic m, { self with setIter })
      | (.ok (some t), setIter) => (.ok (some t), { self with setIter })
      | (.ok none, setIter) =>
          match p.subUsize n boundedSize with
          | .panic m => (.panic m, { self with setIter })
          | .ok n => ((self.rangeIter.nthU S n).1, ⟨setIter, (self.rangeIter.nthU S n).2⟩)

end LowerBoundedSetIter
end Rangetools

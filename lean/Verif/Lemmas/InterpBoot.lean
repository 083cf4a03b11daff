import Verif.Lemmas.Interp

/-!
# A small world

Used by the examples beside the theorems about the interpreter core.
-/

namespace Verif.Model.Interp

/-- Message and variable names of the examples. -/
def mNew : Name := 100
def mOnDo : Name := 101
def mRecursive : Name := 102
def mCase : Name := 103
def mMessage : Name := 104
def mMyself : Name := 105
def mIf : Name := 110
def mElse : Name := 111
def mBreak : Name := 112
def mContinue : Name := 113
def mRun : Name := 120
def mTimes : Name := 121
def mWhile : Name := 122
def mProcedure : Name := 123
def mCatch : Name := 124
def mError : Name := 125
def mSet : Name := 126
def mEach : Name := 130
def mPush : Name := 131
def mEval : Name := 140
def vObject : Name := 200
def vTrue : Name := 201
def vFalse : Name := 202
def vSequence : Name := 203
def vCode : Name := 204
def vX : Name := 300
def vY : Name := 301
def vE : Name := 302
def boolP : Nat := 12

/-- The objects of the example world: Nil, True, False, the world, the prototypes of objects, code,
texts, numbers, sequences and Booleans, and the built-in operations they know
(cf. `world.c:640-1040`). -/
def bootObj (i : Nat) : Obj :=
  match i with
  | 0 => { val := .nil, link := some objectP }
  | 1 => { val := .bool true, link := some boolP }
  | 2 => { val := .bool false, link := some boolP }
  | 3 => { val := .obj, link := some objectP,
           props := [(vObject, objectP), (vTrue, trueO), (vFalse, falseO), (vSequence, arrP),
                     (vCode, codeP)] }
  | 4 => { val := .obj,
           meths := [(mNew, 20), (mOnDo, 21), (mRecursive, 22), (nRespond, 23), (nRespondAnd, 23),
                     (nRespondAndAnd, 23), (nRespondAndAndAnd, 23), (mCase, 24), (mMessage, 25),
                     (nToBool, 26), (mMyself, 27), (nEquals, 28), (nToString, 29),
                     (nToNumber, 43)] }
  | 5 => { val := .obj, link := some objectP,
           meths := [(mRun, 34), (mTimes, 35), (mWhile, 36), (mProcedure, 37), (mCatch, 38),
                     (mError, 39), (mSet, 40)] }
  | 6 => { val := .str 0, link := some objectP, meths := [(mEval, 44)] }
  | 7 => { val := .num 0, link := some objectP }
  | 8 => { val := .arr [], link := some objectP, meths := [(mEach, 41), (mPush, 42), (mNew, 45)] }
  | 12 => { val := .bool false, link := some objectP,
            meths := [(mIf, 30), (mElse, 31), (mBreak, 32), (mContinue, 33)] }
  | 20 => { val := .nat .make }
  | 21 => { val := .nat .onDo }
  | 22 => { val := .nat .recursive }
  | 23 => { val := .nat .respond }
  | 24 => { val := .nat .caseDo }
  | 25 => { val := .nat .message }
  | 26 => { val := .nat (.prim (.other 0)) }
  | 27 => { val := .nat .myself }
  | 28 => { val := .nat (.prim (.other 1)) }
  | 29 => { val := .nat (.prim (.other 2)) }
  | 30 => { val := .nat .ifTrue }
  | 31 => { val := .nat .ifFalse }
  | 32 => { val := .nat .brk }
  | 33 => { val := .nat .cont }
  | 34 => { val := .nat .run }
  | 35 => { val := .nat .times }
  | 36 => { val := .nat .whileTrue }
  | 37 => { val := .nat .procedure }
  | 38 => { val := .nat .catch_ }
  | 39 => { val := .nat .error }
  | 40 => { val := .nat .set }
  | 41 => { val := .nat .each }
  | 42 => { val := .nat .push }
  | 43 => { val := .nat (.prim (.other 3)) }
  | 44 => { val := .nat .eval }
  | 45 => { val := .nat .newArr }
  | _ => { val := .obj }

/-- The start state: only the world is open (`world.c:649`), nothing is pending. -/
def boot : St where
  obj := bootObj
  fresh := 50
  ctxs := [worldO]
  flow := none
  stack := []
  recursion := none
  sandbox := false
  steps := 0
  deser := false
  log := []
  evals := 0

/-- Primitives of the examples: conversion to Boolean (always True, `base.c:242-244`), identity, and
conversions to text and number that answer the prototypes of those. -/
def demo : Env where
  prim p obj fresh r args :=
    match p with
    | .other 0 => .ok ⟨obj, fresh, trueO, none⟩
    | .other 1 => .ok ⟨obj, fresh, if args[0]? = some r then trueO else falseO, none⟩
    | .other 2 => .ok ⟨obj, fresh, strP, none⟩
    | _ => .ok ⟨obj, fresh, numP, none⟩
  parse _ := none

theorem demo_safe : demo.Safe := by
  intro p obj fresh r args h
  simp only [demo] at h
  split at h <;> cases h

/-- Evaluates a check on the result of a run. -/
def Res.sat (o : Res α) (p : α → Bool) : Bool :=
  match o with
  | .ok a => p a
  | _ => false

theorem Res.of_sat {o : Res α} {p : α → Bool} (h : o.sat p = true) : ∃ a, o = .ok a ∧ p a = true := by
  cases o with
  | ok a => exact ⟨a, rfl, h⟩
  | _ => cases h

end Verif.Model.Interp

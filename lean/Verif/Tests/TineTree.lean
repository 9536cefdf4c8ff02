import Mathlib.Data.Int.Order.Basic
import Verif.Model.TineTree
import Verif.Tests.RawInterval

/-!
# The unit tests of `src/test/tine_tree`, run on the model

Generated by `tools/gen_tests.py`: one example for every assertion, with the line it comes from.
Lists that the tests compare as sets (`assert_eq_u!`, `assert_eq_i!`) are compared by membership.
-/

namespace NI.Tests

/-- No panic, and the given elements. -/
abbrev SameSetOk (a : Except Panic (List (RawInterval Int))) (b : List (RawInterval Int)) : Prop :=
  match a with
  | .ok a => SameSet a b
  | .error _ => False

instance (a b) : Decidable (SameSetOk a b) := by
  unfold SameSetOk
  split <;> infer_instance

-- src/test/tine_tree/union.rs:36
example : ∀ dbg, ((.ok (TineTree.new : TineTree Int) : Except Panic _)
      >>= (·.unionInPlace dbg (.upTo 0))
      >>= (·.unionInPlace dbg (.point 1))
      >>= (·.unionInPlace dbg .empty)
      >>= (·.unionInPlace dbg (.opn 2 3))
      >>= (·.unionInPlace dbg (.leftOpen 4 5))
      >>= (·.unionInPlace dbg (.rightOpen 6 7))
      >>= (·.unionInPlace dbg .empty)
      >>= (·.unionInPlace dbg (.closed 8 9))
      >>= (·.unionInPlace dbg (.upFrom 10))
      >>= (·.unionInPlace dbg .empty)
      >>= (·.intervals dbg)) =
    .ok [.upTo 0, .point 1, .opn 2 3, .leftOpen 4 5, .rightOpen 6 7, .closed 8 9, .upFrom 10] := by decide

-- src/test/tine_tree/union.rs:62
example : ∀ dbg, ((.ok (TineTree.new : TineTree Int) : Except Panic _)
      >>= (·.unionInPlace dbg (.upTo 1))
      >>= (·.unionInPlace dbg (.point 1))
      >>= (·.unionInPlace dbg .empty)
      >>= (·.unionInPlace dbg (.opn 0 3))
      >>= (·.unionInPlace dbg (.leftOpen 2 5))
      >>= (·.unionInPlace dbg (.rightOpen 4 7))
      >>= (·.unionInPlace dbg .empty)
      >>= (·.unionInPlace dbg (.closed 6 9))
      >>= (·.unionInPlace dbg (.upFrom 8))
      >>= (·.unionInPlace dbg .empty)
      >>= (·.intervals dbg)) =
    .ok [.full] := by decide

-- src/test/tine_tree/union.rs:81
example : ∀ dbg, ((.ok (TineTree.new : TineTree Int) : Except Panic _)
      >>= (·.unionInPlace dbg (.upFrom 8))
      >>= (·.unionInPlace dbg (.closed 6 9))
      >>= (·.unionInPlace dbg .empty)
      >>= (·.unionInPlace dbg (.rightOpen 4 7))
      >>= (·.unionInPlace dbg (.leftOpen 2 5))
      >>= (·.unionInPlace dbg (.opn 0 3))
      >>= (·.unionInPlace dbg .empty)
      >>= (·.unionInPlace dbg (.point 1))
      >>= (·.unionInPlace dbg (.upTo 1))
      >>= (·.unionInPlace dbg .empty)
      >>= (·.intervals dbg)) =
    .ok [.full] := by decide

-- src/test/tine_tree/union.rs:99
example : ∀ dbg, ((.ok (TineTree.new : TineTree Int) : Except Panic _)
      >>= (·.unionInPlace dbg (.upTo 10))
      >>= (·.unionInPlace dbg (.point 5))
      >>= (·.unionInPlace dbg .empty)
      >>= (·.unionInPlace dbg (.opn 0 7))
      >>= (·.unionInPlace dbg (.leftOpen 2 8))
      >>= (·.unionInPlace dbg (.rightOpen 4 6))
      >>= (·.unionInPlace dbg .empty)
      >>= (·.unionInPlace dbg (.closed 1 9))
      >>= (·.unionInPlace dbg .empty)
      >>= (·.intervals dbg)) =
    .ok [.upTo 10] := by decide

-- src/test/tine_tree/union.rs:118
example : ∀ dbg, ((.ok (TineTree.new : TineTree Int) : Except Panic _)
      >>= (·.unionInPlace dbg (.upTo 1))
      >>= (·.unionInPlace dbg (.point 1))
      >>= (·.unionInPlace dbg .empty)
      >>= (·.unionInPlace dbg (.opn 1 3))
      >>= (·.unionInPlace dbg (.leftOpen 3 5))
      >>= (·.unionInPlace dbg (.rightOpen 5 7))
      >>= (·.unionInPlace dbg .empty)
      >>= (·.unionInPlace dbg (.closed 7 9))
      >>= (·.unionInPlace dbg (.upFrom 9))
      >>= (·.unionInPlace dbg .empty)
      >>= (·.intervals dbg)) =
    .ok [.upTo 3, .upFrom 3] := by decide

-- src/test/tine_tree/union.rs:139
example : ∀ dbg, ((.ok (TineTree.new : TineTree Int) : Except Panic _)
      >>= (·.unionInPlace dbg .full)
      >>= (·.unionInPlace dbg (.upTo 1))
      >>= (·.unionInPlace dbg (.point 1))
      >>= (·.unionInPlace dbg .empty)
      >>= (·.unionInPlace dbg (.opn 1 3))
      >>= (·.unionInPlace dbg (.leftOpen 3 5))
      >>= (·.unionInPlace dbg (.rightOpen 5 7))
      >>= (·.unionInPlace dbg .full)
      >>= (·.unionInPlace dbg (.closed 7 9))
      >>= (·.unionInPlace dbg (.upFrom 9))
      >>= (·.unionInPlace dbg .full)
      >>= (·.intervals dbg)) =
    .ok [.full] := by decide

-- src/test/tine_tree/union.rs:153
example : ∀ dbg, SameSetOk ((TineTree.fromRawInterval (α := Int) .empty).union dbg
    (TineTree.fromRawInterval .empty) >>= (·.intervals dbg)) [] := by decide

-- src/test/tine_tree/union.rs:154
example : ∀ dbg, SameSetOk ((TineTree.fromRawInterval (α := Int) .empty).union dbg
    (TineTree.fromRawInterval (.point 3)) >>= (·.intervals dbg)) [.point 3] := by decide

-- src/test/tine_tree/union.rs:155
example : ∀ dbg, SameSetOk ((TineTree.fromRawInterval (α := Int) .empty).union dbg
    (TineTree.fromRawInterval (.opn 0 3)) >>= (·.intervals dbg)) [.opn 0 3] := by decide

-- src/test/tine_tree/union.rs:156
example : ∀ dbg, SameSetOk ((TineTree.fromRawInterval (α := Int) .empty).union dbg
    (TineTree.fromRawInterval (.leftOpen 0 3)) >>= (·.intervals dbg)) [.leftOpen 0 3] := by decide

-- src/test/tine_tree/union.rs:157
example : ∀ dbg, SameSetOk ((TineTree.fromRawInterval (α := Int) .empty).union dbg
    (TineTree.fromRawInterval (.rightOpen 0 3)) >>= (·.intervals dbg)) [.rightOpen 0 3] := by decide

-- src/test/tine_tree/union.rs:158
example : ∀ dbg, SameSetOk ((TineTree.fromRawInterval (α := Int) .empty).union dbg
    (TineTree.fromRawInterval (.closed 0 3)) >>= (·.intervals dbg)) [.closed 0 3] := by decide

-- src/test/tine_tree/union.rs:159
example : ∀ dbg, SameSetOk ((TineTree.fromRawInterval (α := Int) .empty).union dbg
    (TineTree.fromRawInterval (.upTo 3)) >>= (·.intervals dbg)) [.upTo 3] := by decide

-- src/test/tine_tree/union.rs:160
example : ∀ dbg, SameSetOk ((TineTree.fromRawInterval (α := Int) .empty).union dbg
    (TineTree.fromRawInterval (.upFrom 3)) >>= (·.intervals dbg)) [.upFrom 3] := by decide

-- src/test/tine_tree/union.rs:161
example : ∀ dbg, SameSetOk ((TineTree.fromRawInterval (α := Int) .empty).union dbg
    (TineTree.fromRawInterval (.to 3)) >>= (·.intervals dbg)) [.to 3] := by decide

-- src/test/tine_tree/union.rs:162
example : ∀ dbg, SameSetOk ((TineTree.fromRawInterval (α := Int) .empty).union dbg
    (TineTree.fromRawInterval (.frm 3)) >>= (·.intervals dbg)) [.frm 3] := by decide

-- src/test/tine_tree/union.rs:163
example : ∀ dbg, SameSetOk ((TineTree.fromRawInterval (α := Int) .empty).union dbg
    (TineTree.fromRawInterval .full) >>= (·.intervals dbg)) [.full] := by decide

-- src/test/tine_tree/union.rs:171
example : ∀ dbg, SameSetOk ((TineTree.fromRawInterval (α := Int) .empty).union dbg
    (TineTree.fromRawInterval .empty) >>= (·.intervals dbg)) [] := by decide

-- src/test/tine_tree/union.rs:172
example : ∀ dbg, SameSetOk ((TineTree.fromRawInterval (α := Int) .empty).union dbg
    (TineTree.fromRawInterval (.point 3)) >>= (·.intervals dbg)) [.point 3] := by decide

-- src/test/tine_tree/union.rs:173
example : ∀ dbg, SameSetOk ((TineTree.fromRawInterval (α := Int) .empty).union dbg
    (TineTree.fromRawInterval (.opn 0 3)) >>= (·.intervals dbg)) [.opn 0 3] := by decide

-- src/test/tine_tree/union.rs:174
example : ∀ dbg, SameSetOk ((TineTree.fromRawInterval (α := Int) .empty).union dbg
    (TineTree.fromRawInterval (.leftOpen 0 3)) >>= (·.intervals dbg)) [.leftOpen 0 3] := by decide

-- src/test/tine_tree/union.rs:175
example : ∀ dbg, SameSetOk ((TineTree.fromRawInterval (α := Int) .empty).union dbg
    (TineTree.fromRawInterval (.rightOpen 0 3)) >>= (·.intervals dbg)) [.rightOpen 0 3] := by decide

-- src/test/tine_tree/union.rs:176
example : ∀ dbg, SameSetOk ((TineTree.fromRawInterval (α := Int) .empty).union dbg
    (TineTree.fromRawInterval (.closed 0 3)) >>= (·.intervals dbg)) [.closed 0 3] := by decide

-- src/test/tine_tree/union.rs:177
example : ∀ dbg, SameSetOk ((TineTree.fromRawInterval (α := Int) .empty).union dbg
    (TineTree.fromRawInterval (.upTo 3)) >>= (·.intervals dbg)) [.upTo 3] := by decide

-- src/test/tine_tree/union.rs:178
example : ∀ dbg, SameSetOk ((TineTree.fromRawInterval (α := Int) .empty).union dbg
    (TineTree.fromRawInterval (.upFrom 3)) >>= (·.intervals dbg)) [.upFrom 3] := by decide

-- src/test/tine_tree/union.rs:179
example : ∀ dbg, SameSetOk ((TineTree.fromRawInterval (α := Int) .empty).union dbg
    (TineTree.fromRawInterval (.to 3)) >>= (·.intervals dbg)) [.to 3] := by decide

-- src/test/tine_tree/union.rs:180
example : ∀ dbg, SameSetOk ((TineTree.fromRawInterval (α := Int) .empty).union dbg
    (TineTree.fromRawInterval (.frm 3)) >>= (·.intervals dbg)) [.frm 3] := by decide

-- src/test/tine_tree/union.rs:181
example : ∀ dbg, SameSetOk ((TineTree.fromRawInterval (α := Int) .empty).union dbg
    (TineTree.fromRawInterval .full) >>= (·.intervals dbg)) [.full] := by decide

-- src/test/tine_tree/union.rs:188
example : ∀ dbg, SameSetOk ((TineTree.fromRawInterval (α := Int) (.point 3)).union dbg
    (TineTree.fromRawInterval .empty) >>= (·.intervals dbg)) [.point 3] := by decide

-- src/test/tine_tree/union.rs:189
example : ∀ dbg, SameSetOk ((TineTree.fromRawInterval (α := Int) (.point 3)).union dbg
    (TineTree.fromRawInterval (.point 3)) >>= (·.intervals dbg)) [.point 3] := by decide

-- src/test/tine_tree/union.rs:190
example : ∀ dbg, SameSetOk ((TineTree.fromRawInterval (α := Int) (.point 3)).union dbg
    (TineTree.fromRawInterval (.opn 0 3)) >>= (·.intervals dbg)) [.leftOpen 0 3] := by decide

-- src/test/tine_tree/union.rs:191
example : ∀ dbg, SameSetOk ((TineTree.fromRawInterval (α := Int) (.point 3)).union dbg
    (TineTree.fromRawInterval (.leftOpen 0 3)) >>= (·.intervals dbg)) [.leftOpen 0 3] := by decide

-- src/test/tine_tree/union.rs:192
example : ∀ dbg, SameSetOk ((TineTree.fromRawInterval (α := Int) (.point 3)).union dbg
    (TineTree.fromRawInterval (.rightOpen 0 3)) >>= (·.intervals dbg)) [.closed 0 3] := by decide

-- src/test/tine_tree/union.rs:193
example : ∀ dbg, SameSetOk ((TineTree.fromRawInterval (α := Int) (.point 3)).union dbg
    (TineTree.fromRawInterval (.closed 0 3)) >>= (·.intervals dbg)) [.closed 0 3] := by decide

-- src/test/tine_tree/union.rs:194
example : ∀ dbg, SameSetOk ((TineTree.fromRawInterval (α := Int) (.point 3)).union dbg
    (TineTree.fromRawInterval (.upTo 3)) >>= (·.intervals dbg)) [.to 3] := by decide

-- src/test/tine_tree/union.rs:195
example : ∀ dbg, SameSetOk ((TineTree.fromRawInterval (α := Int) (.point 3)).union dbg
    (TineTree.fromRawInterval (.upFrom 3)) >>= (·.intervals dbg)) [.frm 3] := by decide

-- src/test/tine_tree/union.rs:196
example : ∀ dbg, SameSetOk ((TineTree.fromRawInterval (α := Int) (.point 3)).union dbg
    (TineTree.fromRawInterval (.to 3)) >>= (·.intervals dbg)) [.to 3] := by decide

-- src/test/tine_tree/union.rs:197
example : ∀ dbg, SameSetOk ((TineTree.fromRawInterval (α := Int) (.point 3)).union dbg
    (TineTree.fromRawInterval (.frm 3)) >>= (·.intervals dbg)) [.frm 3] := by decide

-- src/test/tine_tree/union.rs:198
example : ∀ dbg, SameSetOk ((TineTree.fromRawInterval (α := Int) (.point 3)).union dbg
    (TineTree.fromRawInterval .full) >>= (·.intervals dbg)) [.full] := by decide

-- src/test/tine_tree/union.rs:205
example : ∀ dbg, SameSetOk ((TineTree.fromRawInterval (α := Int) (.point 3)).union dbg
    (TineTree.fromRawInterval .empty) >>= (·.intervals dbg)) [.point 3] := by decide

-- src/test/tine_tree/union.rs:206
example : ∀ dbg, SameSetOk ((TineTree.fromRawInterval (α := Int) (.point 3)).union dbg
    (TineTree.fromRawInterval (.point (-1))) >>= (·.intervals dbg)) [.point 3, .point (-1)] := by decide

-- src/test/tine_tree/union.rs:207
example : ∀ dbg, SameSetOk ((TineTree.fromRawInterval (α := Int) (.point 3)).union dbg
    (TineTree.fromRawInterval (.opn (-3) (-1))) >>= (·.intervals dbg)) [.point 3, .opn (-3) (-1)] := by decide

-- src/test/tine_tree/union.rs:208
example : ∀ dbg, SameSetOk ((TineTree.fromRawInterval (α := Int) (.point 3)).union dbg
    (TineTree.fromRawInterval (.leftOpen (-3) (-1))) >>= (·.intervals dbg)) [.point 3, .leftOpen (-3) (-1)] := by decide

-- src/test/tine_tree/union.rs:209
example : ∀ dbg, SameSetOk ((TineTree.fromRawInterval (α := Int) (.point 3)).union dbg
    (TineTree.fromRawInterval (.rightOpen (-3) (-1))) >>= (·.intervals dbg)) [.point 3, .rightOpen (-3) (-1)] := by decide

-- src/test/tine_tree/union.rs:210
example : ∀ dbg, SameSetOk ((TineTree.fromRawInterval (α := Int) (.point 3)).union dbg
    (TineTree.fromRawInterval (.closed (-3) (-1))) >>= (·.intervals dbg)) [.point 3, .closed (-3) (-1)] := by decide

-- src/test/tine_tree/union.rs:211
example : ∀ dbg, SameSetOk ((TineTree.fromRawInterval (α := Int) (.point 3)).union dbg
    (TineTree.fromRawInterval (.upTo (-3))) >>= (·.intervals dbg)) [.point 3, .upTo (-3)] := by decide

-- src/test/tine_tree/union.rs:212
example : ∀ dbg, SameSetOk ((TineTree.fromRawInterval (α := Int) (.point 3)).union dbg
    (TineTree.fromRawInterval (.upFrom (-3))) >>= (·.intervals dbg)) [.upFrom (-3)] := by decide

-- src/test/tine_tree/union.rs:213
example : ∀ dbg, SameSetOk ((TineTree.fromRawInterval (α := Int) (.point 3)).union dbg
    (TineTree.fromRawInterval (.to (-3))) >>= (·.intervals dbg)) [.point 3, .to (-3)] := by decide

-- src/test/tine_tree/union.rs:214
example : ∀ dbg, SameSetOk ((TineTree.fromRawInterval (α := Int) (.point 3)).union dbg
    (TineTree.fromRawInterval (.frm (-3))) >>= (·.intervals dbg)) [.frm (-3)] := by decide

-- src/test/tine_tree/union.rs:215
example : ∀ dbg, SameSetOk ((TineTree.fromRawInterval (α := Int) (.point 3)).union dbg
    (TineTree.fromRawInterval .full) >>= (·.intervals dbg)) [.full] := by decide

-- src/test/tine_tree/union.rs:222
example : ∀ dbg, SameSetOk ((TineTree.fromRawInterval (α := Int) (.point 3)).union dbg
    (TineTree.fromRawInterval .empty) >>= (·.intervals dbg)) [.point 3] := by decide

-- src/test/tine_tree/union.rs:223
example : ∀ dbg, SameSetOk ((TineTree.fromRawInterval (α := Int) (.point 3)).union dbg
    (TineTree.fromRawInterval (.point 10)) >>= (·.intervals dbg)) [.point 3, .point 10] := by decide

-- src/test/tine_tree/union.rs:224
example : ∀ dbg, SameSetOk ((TineTree.fromRawInterval (α := Int) (.point 3)).union dbg
    (TineTree.fromRawInterval (.opn 10 13)) >>= (·.intervals dbg)) [.point 3, .opn 10 13] := by decide

-- src/test/tine_tree/union.rs:225
example : ∀ dbg, SameSetOk ((TineTree.fromRawInterval (α := Int) (.point 3)).union dbg
    (TineTree.fromRawInterval (.leftOpen 10 13)) >>= (·.intervals dbg)) [.point 3, .leftOpen 10 13] := by decide

-- src/test/tine_tree/union.rs:226
example : ∀ dbg, SameSetOk ((TineTree.fromRawInterval (α := Int) (.point 3)).union dbg
    (TineTree.fromRawInterval (.rightOpen 10 13)) >>= (·.intervals dbg)) [.point 3, .rightOpen 10 13] := by decide

-- src/test/tine_tree/union.rs:227
example : ∀ dbg, SameSetOk ((TineTree.fromRawInterval (α := Int) (.point 3)).union dbg
    (TineTree.fromRawInterval (.closed 10 13)) >>= (·.intervals dbg)) [.point 3, .closed 10 13] := by decide

-- src/test/tine_tree/union.rs:228
example : ∀ dbg, SameSetOk ((TineTree.fromRawInterval (α := Int) (.point 3)).union dbg
    (TineTree.fromRawInterval (.upTo 13)) >>= (·.intervals dbg)) [.upTo 13] := by decide

-- src/test/tine_tree/union.rs:229
example : ∀ dbg, SameSetOk ((TineTree.fromRawInterval (α := Int) (.point 3)).union dbg
    (TineTree.fromRawInterval (.upFrom 13)) >>= (·.intervals dbg)) [.point 3, .upFrom 13] := by decide

-- src/test/tine_tree/union.rs:230
example : ∀ dbg, SameSetOk ((TineTree.fromRawInterval (α := Int) (.point 3)).union dbg
    (TineTree.fromRawInterval (.to 13)) >>= (·.intervals dbg)) [.to 13] := by decide

-- src/test/tine_tree/union.rs:231
example : ∀ dbg, SameSetOk ((TineTree.fromRawInterval (α := Int) (.point 3)).union dbg
    (TineTree.fromRawInterval (.frm 13)) >>= (·.intervals dbg)) [.point 3, .frm 13] := by decide

-- src/test/tine_tree/union.rs:232
example : ∀ dbg, SameSetOk ((TineTree.fromRawInterval (α := Int) (.point 3)).union dbg
    (TineTree.fromRawInterval .full) >>= (·.intervals dbg)) [.full] := by decide

-- src/test/tine_tree/union.rs:239
example : ∀ dbg, SameSetOk ((TineTree.fromRawInterval (α := Int) (.opn 0 3)).union dbg
    (TineTree.fromRawInterval .empty) >>= (·.intervals dbg)) [.opn 0 3] := by decide

-- src/test/tine_tree/union.rs:240
example : ∀ dbg, SameSetOk ((TineTree.fromRawInterval (α := Int) (.opn 0 3)).union dbg
    (TineTree.fromRawInterval (.point 3)) >>= (·.intervals dbg)) [.leftOpen 0 3] := by decide

-- src/test/tine_tree/union.rs:241
example : ∀ dbg, SameSetOk ((TineTree.fromRawInterval (α := Int) (.opn 0 3)).union dbg
    (TineTree.fromRawInterval (.opn 0 3)) >>= (·.intervals dbg)) [.opn 0 3] := by decide

-- src/test/tine_tree/union.rs:242
example : ∀ dbg, SameSetOk ((TineTree.fromRawInterval (α := Int) (.opn 0 3)).union dbg
    (TineTree.fromRawInterval (.leftOpen 0 3)) >>= (·.intervals dbg)) [.leftOpen 0 3] := by decide

-- src/test/tine_tree/union.rs:243
example : ∀ dbg, SameSetOk ((TineTree.fromRawInterval (α := Int) (.opn 0 3)).union dbg
    (TineTree.fromRawInterval (.rightOpen 0 3)) >>= (·.intervals dbg)) [.rightOpen 0 3] := by decide

-- src/test/tine_tree/union.rs:244
example : ∀ dbg, SameSetOk ((TineTree.fromRawInterval (α := Int) (.opn 0 3)).union dbg
    (TineTree.fromRawInterval (.closed 0 3)) >>= (·.intervals dbg)) [.closed 0 3] := by decide

-- src/test/tine_tree/union.rs:245
example : ∀ dbg, SameSetOk ((TineTree.fromRawInterval (α := Int) (.opn 0 3)).union dbg
    (TineTree.fromRawInterval (.upTo 3)) >>= (·.intervals dbg)) [.upTo 3] := by decide

-- src/test/tine_tree/union.rs:246
example : ∀ dbg, SameSetOk ((TineTree.fromRawInterval (α := Int) (.opn 0 3)).union dbg
    (TineTree.fromRawInterval (.upFrom 3)) >>= (·.intervals dbg)) [.opn 0 3, .upFrom 3] := by decide

-- src/test/tine_tree/union.rs:247
example : ∀ dbg, SameSetOk ((TineTree.fromRawInterval (α := Int) (.opn 0 3)).union dbg
    (TineTree.fromRawInterval (.to 3)) >>= (·.intervals dbg)) [.to 3] := by decide

-- src/test/tine_tree/union.rs:248
example : ∀ dbg, SameSetOk ((TineTree.fromRawInterval (α := Int) (.opn 0 3)).union dbg
    (TineTree.fromRawInterval (.frm 3)) >>= (·.intervals dbg)) [.upFrom 0] := by decide

-- src/test/tine_tree/union.rs:249
example : ∀ dbg, SameSetOk ((TineTree.fromRawInterval (α := Int) (.opn 0 3)).union dbg
    (TineTree.fromRawInterval .full) >>= (·.intervals dbg)) [.full] := by decide

-- src/test/tine_tree/union.rs:256
example : ∀ dbg, SameSetOk ((TineTree.fromRawInterval (α := Int) (.opn 0 3)).union dbg
    (TineTree.fromRawInterval .empty) >>= (·.intervals dbg)) [.opn 0 3] := by decide

-- src/test/tine_tree/union.rs:257
example : ∀ dbg, SameSetOk ((TineTree.fromRawInterval (α := Int) (.opn 0 3)).union dbg
    (TineTree.fromRawInterval (.point (-3))) >>= (·.intervals dbg)) [.opn 0 3, .point (-3)] := by decide

-- src/test/tine_tree/union.rs:258
example : ∀ dbg, SameSetOk ((TineTree.fromRawInterval (α := Int) (.opn 0 3)).union dbg
    (TineTree.fromRawInterval (.opn (-3) (-1))) >>= (·.intervals dbg)) [.opn 0 3, .opn (-3) (-1)] := by decide

-- src/test/tine_tree/union.rs:259
example : ∀ dbg, SameSetOk ((TineTree.fromRawInterval (α := Int) (.opn 0 3)).union dbg
    (TineTree.fromRawInterval (.leftOpen (-3) (-1))) >>= (·.intervals dbg)) [.opn 0 3, .leftOpen (-3) (-1)] := by decide

-- src/test/tine_tree/union.rs:260
example : ∀ dbg, SameSetOk ((TineTree.fromRawInterval (α := Int) (.opn 0 3)).union dbg
    (TineTree.fromRawInterval (.rightOpen (-3) (-1))) >>= (·.intervals dbg)) [.opn 0 3, .rightOpen (-3) (-1)] := by decide

-- src/test/tine_tree/union.rs:261
example : ∀ dbg, SameSetOk ((TineTree.fromRawInterval (α := Int) (.opn 0 3)).union dbg
    (TineTree.fromRawInterval (.closed (-3) (-1))) >>= (·.intervals dbg)) [.opn 0 3, .closed (-3) (-1)] := by decide

-- src/test/tine_tree/union.rs:262
example : ∀ dbg, SameSetOk ((TineTree.fromRawInterval (α := Int) (.opn 0 3)).union dbg
    (TineTree.fromRawInterval (.upTo (-3))) >>= (·.intervals dbg)) [.opn 0 3, .upTo (-3)] := by decide

-- src/test/tine_tree/union.rs:263
example : ∀ dbg, SameSetOk ((TineTree.fromRawInterval (α := Int) (.opn 0 3)).union dbg
    (TineTree.fromRawInterval (.upFrom (-3))) >>= (·.intervals dbg)) [.upFrom (-3)] := by decide

-- src/test/tine_tree/union.rs:264
example : ∀ dbg, SameSetOk ((TineTree.fromRawInterval (α := Int) (.opn 0 3)).union dbg
    (TineTree.fromRawInterval (.to (-3))) >>= (·.intervals dbg)) [.opn 0 3, .to (-3)] := by decide

-- src/test/tine_tree/union.rs:265
example : ∀ dbg, SameSetOk ((TineTree.fromRawInterval (α := Int) (.opn 0 3)).union dbg
    (TineTree.fromRawInterval (.frm (-3))) >>= (·.intervals dbg)) [.frm (-3)] := by decide

-- src/test/tine_tree/union.rs:266
example : ∀ dbg, SameSetOk ((TineTree.fromRawInterval (α := Int) (.opn 0 3)).union dbg
    (TineTree.fromRawInterval .full) >>= (·.intervals dbg)) [.full] := by decide

-- src/test/tine_tree/union.rs:273
example : ∀ dbg, SameSetOk ((TineTree.fromRawInterval (α := Int) (.opn 0 3)).union dbg
    (TineTree.fromRawInterval .empty) >>= (·.intervals dbg)) [.opn 0 3] := by decide

-- src/test/tine_tree/union.rs:274
example : ∀ dbg, SameSetOk ((TineTree.fromRawInterval (α := Int) (.opn 0 3)).union dbg
    (TineTree.fromRawInterval (.point 13)) >>= (·.intervals dbg)) [.opn 0 3, .point 13] := by decide

-- src/test/tine_tree/union.rs:275
example : ∀ dbg, SameSetOk ((TineTree.fromRawInterval (α := Int) (.opn 0 3)).union dbg
    (TineTree.fromRawInterval (.opn 10 13)) >>= (·.intervals dbg)) [.opn 0 3, .opn 10 13] := by decide

-- src/test/tine_tree/union.rs:276
example : ∀ dbg, SameSetOk ((TineTree.fromRawInterval (α := Int) (.opn 0 3)).union dbg
    (TineTree.fromRawInterval (.leftOpen 10 13)) >>= (·.intervals dbg)) [.opn 0 3, .leftOpen 10 13] := by decide

-- src/test/tine_tree/union.rs:277
example : ∀ dbg, SameSetOk ((TineTree.fromRawInterval (α := Int) (.opn 0 3)).union dbg
    (TineTree.fromRawInterval (.rightOpen 10 13)) >>= (·.intervals dbg)) [.opn 0 3, .rightOpen 10 13] := by decide

-- src/test/tine_tree/union.rs:278
example : ∀ dbg, SameSetOk ((TineTree.fromRawInterval (α := Int) (.opn 0 3)).union dbg
    (TineTree.fromRawInterval (.closed 10 13)) >>= (·.intervals dbg)) [.opn 0 3, .closed 10 13] := by decide

-- src/test/tine_tree/union.rs:279
example : ∀ dbg, SameSetOk ((TineTree.fromRawInterval (α := Int) (.opn 0 3)).union dbg
    (TineTree.fromRawInterval (.upTo 13)) >>= (·.intervals dbg)) [.upTo 13] := by decide

-- src/test/tine_tree/union.rs:280
example : ∀ dbg, SameSetOk ((TineTree.fromRawInterval (α := Int) (.opn 0 3)).union dbg
    (TineTree.fromRawInterval (.upFrom 13)) >>= (·.intervals dbg)) [.opn 0 3, .upFrom 13] := by decide

-- src/test/tine_tree/union.rs:281
example : ∀ dbg, SameSetOk ((TineTree.fromRawInterval (α := Int) (.opn 0 3)).union dbg
    (TineTree.fromRawInterval (.to 13)) >>= (·.intervals dbg)) [.to 13] := by decide

-- src/test/tine_tree/union.rs:282
example : ∀ dbg, SameSetOk ((TineTree.fromRawInterval (α := Int) (.opn 0 3)).union dbg
    (TineTree.fromRawInterval (.frm 13)) >>= (·.intervals dbg)) [.opn 0 3, .frm 13] := by decide

-- src/test/tine_tree/union.rs:283
example : ∀ dbg, SameSetOk ((TineTree.fromRawInterval (α := Int) (.opn 0 3)).union dbg
    (TineTree.fromRawInterval .full) >>= (·.intervals dbg)) [.full] := by decide

-- src/test/tine_tree/union.rs:290
example : ∀ dbg, SameSetOk ((TineTree.fromRawInterval (α := Int) (.leftOpen 0 3)).union dbg
    (TineTree.fromRawInterval .empty) >>= (·.intervals dbg)) [.leftOpen 0 3] := by decide

-- src/test/tine_tree/union.rs:291
example : ∀ dbg, SameSetOk ((TineTree.fromRawInterval (α := Int) (.leftOpen 0 3)).union dbg
    (TineTree.fromRawInterval (.point 3)) >>= (·.intervals dbg)) [.leftOpen 0 3] := by decide

-- src/test/tine_tree/union.rs:292
example : ∀ dbg, SameSetOk ((TineTree.fromRawInterval (α := Int) (.leftOpen 0 3)).union dbg
    (TineTree.fromRawInterval (.opn 0 3)) >>= (·.intervals dbg)) [.leftOpen 0 3] := by decide

-- src/test/tine_tree/union.rs:293
example : ∀ dbg, SameSetOk ((TineTree.fromRawInterval (α := Int) (.leftOpen 0 3)).union dbg
    (TineTree.fromRawInterval (.leftOpen 0 3)) >>= (·.intervals dbg)) [.leftOpen 0 3] := by decide

-- src/test/tine_tree/union.rs:294
example : ∀ dbg, SameSetOk ((TineTree.fromRawInterval (α := Int) (.leftOpen 0 3)).union dbg
    (TineTree.fromRawInterval (.rightOpen 0 3)) >>= (·.intervals dbg)) [.closed 0 3] := by decide

-- src/test/tine_tree/union.rs:295
example : ∀ dbg, SameSetOk ((TineTree.fromRawInterval (α := Int) (.leftOpen 0 3)).union dbg
    (TineTree.fromRawInterval (.closed 0 3)) >>= (·.intervals dbg)) [.closed 0 3] := by decide

-- src/test/tine_tree/union.rs:296
example : ∀ dbg, SameSetOk ((TineTree.fromRawInterval (α := Int) (.leftOpen 0 3)).union dbg
    (TineTree.fromRawInterval (.upTo 3)) >>= (·.intervals dbg)) [.to 3] := by decide

-- src/test/tine_tree/union.rs:297
example : ∀ dbg, SameSetOk ((TineTree.fromRawInterval (α := Int) (.leftOpen 0 3)).union dbg
    (TineTree.fromRawInterval (.upFrom 3)) >>= (·.intervals dbg)) [.upFrom 0] := by decide

-- src/test/tine_tree/union.rs:298
example : ∀ dbg, SameSetOk ((TineTree.fromRawInterval (α := Int) (.leftOpen 0 3)).union dbg
    (TineTree.fromRawInterval (.to 3)) >>= (·.intervals dbg)) [.to 3] := by decide

-- src/test/tine_tree/union.rs:299
example : ∀ dbg, SameSetOk ((TineTree.fromRawInterval (α := Int) (.leftOpen 0 3)).union dbg
    (TineTree.fromRawInterval (.frm 3)) >>= (·.intervals dbg)) [.upFrom 0] := by decide

-- src/test/tine_tree/union.rs:300
example : ∀ dbg, SameSetOk ((TineTree.fromRawInterval (α := Int) (.leftOpen 0 3)).union dbg
    (TineTree.fromRawInterval .full) >>= (·.intervals dbg)) [.full] := by decide

-- src/test/tine_tree/union.rs:307
example : ∀ dbg, SameSetOk ((TineTree.fromRawInterval (α := Int) (.leftOpen 0 3)).union dbg
    (TineTree.fromRawInterval .empty) >>= (·.intervals dbg)) [.leftOpen 0 3] := by decide

-- src/test/tine_tree/union.rs:308
example : ∀ dbg, SameSetOk ((TineTree.fromRawInterval (α := Int) (.leftOpen 0 3)).union dbg
    (TineTree.fromRawInterval (.point (-3))) >>= (·.intervals dbg)) [.leftOpen 0 3, .point (-3)] := by decide

-- src/test/tine_tree/union.rs:309
example : ∀ dbg, SameSetOk ((TineTree.fromRawInterval (α := Int) (.leftOpen 0 3)).union dbg
    (TineTree.fromRawInterval (.opn (-3) (-1))) >>= (·.intervals dbg)) [.leftOpen 0 3, .opn (-3) (-1)] := by decide

-- src/test/tine_tree/union.rs:310
example : ∀ dbg, SameSetOk ((TineTree.fromRawInterval (α := Int) (.leftOpen 0 3)).union dbg
    (TineTree.fromRawInterval (.leftOpen (-3) (-1))) >>= (·.intervals dbg)) [.leftOpen 0 3, .leftOpen (-3) (-1)] := by decide

-- src/test/tine_tree/union.rs:311
example : ∀ dbg, SameSetOk ((TineTree.fromRawInterval (α := Int) (.leftOpen 0 3)).union dbg
    (TineTree.fromRawInterval (.rightOpen (-3) (-1))) >>= (·.intervals dbg)) [.leftOpen 0 3, .rightOpen (-3) (-1)] := by decide

-- src/test/tine_tree/union.rs:312
example : ∀ dbg, SameSetOk ((TineTree.fromRawInterval (α := Int) (.leftOpen 0 3)).union dbg
    (TineTree.fromRawInterval (.closed (-3) (-1))) >>= (·.intervals dbg)) [.leftOpen 0 3, .closed (-3) (-1)] := by decide

-- src/test/tine_tree/union.rs:313
example : ∀ dbg, SameSetOk ((TineTree.fromRawInterval (α := Int) (.leftOpen 0 3)).union dbg
    (TineTree.fromRawInterval (.upTo (-3))) >>= (·.intervals dbg)) [.leftOpen 0 3, .upTo (-3)] := by decide

-- src/test/tine_tree/union.rs:314
example : ∀ dbg, SameSetOk ((TineTree.fromRawInterval (α := Int) (.leftOpen 0 3)).union dbg
    (TineTree.fromRawInterval (.upFrom (-3))) >>= (·.intervals dbg)) [.upFrom (-3)] := by decide

-- src/test/tine_tree/union.rs:315
example : ∀ dbg, SameSetOk ((TineTree.fromRawInterval (α := Int) (.leftOpen 0 3)).union dbg
    (TineTree.fromRawInterval (.to (-3))) >>= (·.intervals dbg)) [.leftOpen 0 3, .to (-3)] := by decide

-- src/test/tine_tree/union.rs:316
example : ∀ dbg, SameSetOk ((TineTree.fromRawInterval (α := Int) (.leftOpen 0 3)).union dbg
    (TineTree.fromRawInterval (.frm (-3))) >>= (·.intervals dbg)) [.frm (-3)] := by decide

-- src/test/tine_tree/union.rs:317
example : ∀ dbg, SameSetOk ((TineTree.fromRawInterval (α := Int) (.leftOpen 0 3)).union dbg
    (TineTree.fromRawInterval .full) >>= (·.intervals dbg)) [.full] := by decide

-- src/test/tine_tree/union.rs:324
example : ∀ dbg, SameSetOk ((TineTree.fromRawInterval (α := Int) (.leftOpen 0 3)).union dbg
    (TineTree.fromRawInterval .empty) >>= (·.intervals dbg)) [.leftOpen 0 3] := by decide

-- src/test/tine_tree/union.rs:325
example : ∀ dbg, SameSetOk ((TineTree.fromRawInterval (α := Int) (.leftOpen 0 3)).union dbg
    (TineTree.fromRawInterval (.point 13)) >>= (·.intervals dbg)) [.leftOpen 0 3, .point 13] := by decide

-- src/test/tine_tree/union.rs:326
example : ∀ dbg, SameSetOk ((TineTree.fromRawInterval (α := Int) (.leftOpen 0 3)).union dbg
    (TineTree.fromRawInterval (.opn 10 13)) >>= (·.intervals dbg)) [.leftOpen 0 3, .opn 10 13] := by decide

-- src/test/tine_tree/union.rs:327
example : ∀ dbg, SameSetOk ((TineTree.fromRawInterval (α := Int) (.leftOpen 0 3)).union dbg
    (TineTree.fromRawInterval (.leftOpen 10 13)) >>= (·.intervals dbg)) [.leftOpen 0 3, .leftOpen 10 13] := by decide

-- src/test/tine_tree/union.rs:328
example : ∀ dbg, SameSetOk ((TineTree.fromRawInterval (α := Int) (.leftOpen 0 3)).union dbg
    (TineTree.fromRawInterval (.rightOpen 10 13)) >>= (·.intervals dbg)) [.leftOpen 0 3, .rightOpen 10 13] := by decide

-- src/test/tine_tree/union.rs:329
example : ∀ dbg, SameSetOk ((TineTree.fromRawInterval (α := Int) (.leftOpen 0 3)).union dbg
    (TineTree.fromRawInterval (.closed 10 13)) >>= (·.intervals dbg)) [.leftOpen 0 3, .closed 10 13] := by decide

-- src/test/tine_tree/union.rs:330
example : ∀ dbg, SameSetOk ((TineTree.fromRawInterval (α := Int) (.leftOpen 0 3)).union dbg
    (TineTree.fromRawInterval (.upTo 13)) >>= (·.intervals dbg)) [.upTo 13] := by decide

-- src/test/tine_tree/union.rs:331
example : ∀ dbg, SameSetOk ((TineTree.fromRawInterval (α := Int) (.leftOpen 0 3)).union dbg
    (TineTree.fromRawInterval (.upFrom 13)) >>= (·.intervals dbg)) [.leftOpen 0 3, .upFrom 13] := by decide

-- src/test/tine_tree/union.rs:332
example : ∀ dbg, SameSetOk ((TineTree.fromRawInterval (α := Int) (.leftOpen 0 3)).union dbg
    (TineTree.fromRawInterval (.to 13)) >>= (·.intervals dbg)) [.to 13] := by decide

-- src/test/tine_tree/union.rs:333
example : ∀ dbg, SameSetOk ((TineTree.fromRawInterval (α := Int) (.leftOpen 0 3)).union dbg
    (TineTree.fromRawInterval (.frm 13)) >>= (·.intervals dbg)) [.leftOpen 0 3, .frm 13] := by decide

-- src/test/tine_tree/union.rs:334
example : ∀ dbg, SameSetOk ((TineTree.fromRawInterval (α := Int) (.leftOpen 0 3)).union dbg
    (TineTree.fromRawInterval .full) >>= (·.intervals dbg)) [.full] := by decide

-- src/test/tine_tree/union.rs:341
example : ∀ dbg, SameSetOk ((TineTree.fromRawInterval (α := Int) (.rightOpen 0 3)).union dbg
    (TineTree.fromRawInterval .empty) >>= (·.intervals dbg)) [.rightOpen 0 3] := by decide

-- src/test/tine_tree/union.rs:342
example : ∀ dbg, SameSetOk ((TineTree.fromRawInterval (α := Int) (.rightOpen 0 3)).union dbg
    (TineTree.fromRawInterval (.point 3)) >>= (·.intervals dbg)) [.closed 0 3] := by decide

-- src/test/tine_tree/union.rs:343
example : ∀ dbg, SameSetOk ((TineTree.fromRawInterval (α := Int) (.rightOpen 0 3)).union dbg
    (TineTree.fromRawInterval (.opn 0 3)) >>= (·.intervals dbg)) [.rightOpen 0 3] := by decide

-- src/test/tine_tree/union.rs:344
example : ∀ dbg, SameSetOk ((TineTree.fromRawInterval (α := Int) (.rightOpen 0 3)).union dbg
    (TineTree.fromRawInterval (.leftOpen 0 3)) >>= (·.intervals dbg)) [.closed 0 3] := by decide

-- src/test/tine_tree/union.rs:345
example : ∀ dbg, SameSetOk ((TineTree.fromRawInterval (α := Int) (.rightOpen 0 3)).union dbg
    (TineTree.fromRawInterval (.rightOpen 0 3)) >>= (·.intervals dbg)) [.rightOpen 0 3] := by decide

-- src/test/tine_tree/union.rs:346
example : ∀ dbg, SameSetOk ((TineTree.fromRawInterval (α := Int) (.rightOpen 0 3)).union dbg
    (TineTree.fromRawInterval (.closed 0 3)) >>= (·.intervals dbg)) [.closed 0 3] := by decide

-- src/test/tine_tree/union.rs:347
example : ∀ dbg, SameSetOk ((TineTree.fromRawInterval (α := Int) (.rightOpen 0 3)).union dbg
    (TineTree.fromRawInterval (.upTo 3)) >>= (·.intervals dbg)) [.upTo 3] := by decide

-- src/test/tine_tree/union.rs:348
example : ∀ dbg, SameSetOk ((TineTree.fromRawInterval (α := Int) (.rightOpen 0 3)).union dbg
    (TineTree.fromRawInterval (.upFrom 3)) >>= (·.intervals dbg)) [.rightOpen 0 3, .upFrom 3] := by decide

-- src/test/tine_tree/union.rs:349
example : ∀ dbg, SameSetOk ((TineTree.fromRawInterval (α := Int) (.rightOpen 0 3)).union dbg
    (TineTree.fromRawInterval (.to 3)) >>= (·.intervals dbg)) [.to 3] := by decide

-- src/test/tine_tree/union.rs:350
example : ∀ dbg, SameSetOk ((TineTree.fromRawInterval (α := Int) (.rightOpen 0 3)).union dbg
    (TineTree.fromRawInterval (.frm 3)) >>= (·.intervals dbg)) [.frm 0] := by decide

-- src/test/tine_tree/union.rs:351
example : ∀ dbg, SameSetOk ((TineTree.fromRawInterval (α := Int) (.rightOpen 0 3)).union dbg
    (TineTree.fromRawInterval .full) >>= (·.intervals dbg)) [.full] := by decide

-- src/test/tine_tree/union.rs:358
example : ∀ dbg, SameSetOk ((TineTree.fromRawInterval (α := Int) (.rightOpen 0 3)).union dbg
    (TineTree.fromRawInterval .empty) >>= (·.intervals dbg)) [.rightOpen 0 3] := by decide

-- src/test/tine_tree/union.rs:359
example : ∀ dbg, SameSetOk ((TineTree.fromRawInterval (α := Int) (.rightOpen 0 3)).union dbg
    (TineTree.fromRawInterval (.point (-3))) >>= (·.intervals dbg)) [.rightOpen 0 3, .point (-3)] := by decide

-- src/test/tine_tree/union.rs:360
example : ∀ dbg, SameSetOk ((TineTree.fromRawInterval (α := Int) (.rightOpen 0 3)).union dbg
    (TineTree.fromRawInterval (.opn (-3) (-1))) >>= (·.intervals dbg)) [.rightOpen 0 3, .opn (-3) (-1)] := by decide

-- src/test/tine_tree/union.rs:361
example : ∀ dbg, SameSetOk ((TineTree.fromRawInterval (α := Int) (.rightOpen 0 3)).union dbg
    (TineTree.fromRawInterval (.leftOpen (-3) (-1))) >>= (·.intervals dbg)) [.rightOpen 0 3, .leftOpen (-3) (-1)] := by decide

-- src/test/tine_tree/union.rs:362
example : ∀ dbg, SameSetOk ((TineTree.fromRawInterval (α := Int) (.rightOpen 0 3)).union dbg
    (TineTree.fromRawInterval (.rightOpen (-3) (-1))) >>= (·.intervals dbg)) [.rightOpen 0 3, .rightOpen (-3) (-1)] := by decide

-- src/test/tine_tree/union.rs:363
example : ∀ dbg, SameSetOk ((TineTree.fromRawInterval (α := Int) (.rightOpen 0 3)).union dbg
    (TineTree.fromRawInterval (.closed (-3) (-1))) >>= (·.intervals dbg)) [.rightOpen 0 3, .closed (-3) (-1)] := by decide

-- src/test/tine_tree/union.rs:364
example : ∀ dbg, SameSetOk ((TineTree.fromRawInterval (α := Int) (.rightOpen 0 3)).union dbg
    (TineTree.fromRawInterval (.upTo (-3))) >>= (·.intervals dbg)) [.rightOpen 0 3, .upTo (-3)] := by decide

-- src/test/tine_tree/union.rs:365
example : ∀ dbg, SameSetOk ((TineTree.fromRawInterval (α := Int) (.rightOpen 0 3)).union dbg
    (TineTree.fromRawInterval (.upFrom (-3))) >>= (·.intervals dbg)) [.upFrom (-3)] := by decide

-- src/test/tine_tree/union.rs:366
example : ∀ dbg, SameSetOk ((TineTree.fromRawInterval (α := Int) (.rightOpen 0 3)).union dbg
    (TineTree.fromRawInterval (.to (-3))) >>= (·.intervals dbg)) [.rightOpen 0 3, .to (-3)] := by decide

-- src/test/tine_tree/union.rs:367
example : ∀ dbg, SameSetOk ((TineTree.fromRawInterval (α := Int) (.rightOpen 0 3)).union dbg
    (TineTree.fromRawInterval (.frm (-3))) >>= (·.intervals dbg)) [.frm (-3)] := by decide

-- src/test/tine_tree/union.rs:368
example : ∀ dbg, SameSetOk ((TineTree.fromRawInterval (α := Int) (.rightOpen 0 3)).union dbg
    (TineTree.fromRawInterval .full) >>= (·.intervals dbg)) [.full] := by decide

-- src/test/tine_tree/union.rs:375
example : ∀ dbg, SameSetOk ((TineTree.fromRawInterval (α := Int) (.rightOpen 0 3)).union dbg
    (TineTree.fromRawInterval .empty) >>= (·.intervals dbg)) [.rightOpen 0 3] := by decide

-- src/test/tine_tree/union.rs:376
example : ∀ dbg, SameSetOk ((TineTree.fromRawInterval (α := Int) (.rightOpen 0 3)).union dbg
    (TineTree.fromRawInterval (.point 13)) >>= (·.intervals dbg)) [.rightOpen 0 3, .point 13] := by decide

-- src/test/tine_tree/union.rs:377
example : ∀ dbg, SameSetOk ((TineTree.fromRawInterval (α := Int) (.rightOpen 0 3)).union dbg
    (TineTree.fromRawInterval (.opn 10 13)) >>= (·.intervals dbg)) [.rightOpen 0 3, .opn 10 13] := by decide

-- src/test/tine_tree/union.rs:378
example : ∀ dbg, SameSetOk ((TineTree.fromRawInterval (α := Int) (.rightOpen 0 3)).union dbg
    (TineTree.fromRawInterval (.leftOpen 10 13)) >>= (·.intervals dbg)) [.rightOpen 0 3, .leftOpen 10 13] := by decide

-- src/test/tine_tree/union.rs:379
example : ∀ dbg, SameSetOk ((TineTree.fromRawInterval (α := Int) (.rightOpen 0 3)).union dbg
    (TineTree.fromRawInterval (.rightOpen 10 13)) >>= (·.intervals dbg)) [.rightOpen 0 3, .rightOpen 10 13] := by decide

-- src/test/tine_tree/union.rs:380
example : ∀ dbg, SameSetOk ((TineTree.fromRawInterval (α := Int) (.rightOpen 0 3)).union dbg
    (TineTree.fromRawInterval (.closed 10 13)) >>= (·.intervals dbg)) [.rightOpen 0 3, .closed 10 13] := by decide

-- src/test/tine_tree/union.rs:381
example : ∀ dbg, SameSetOk ((TineTree.fromRawInterval (α := Int) (.rightOpen 0 3)).union dbg
    (TineTree.fromRawInterval (.upTo 13)) >>= (·.intervals dbg)) [.upTo 13] := by decide

-- src/test/tine_tree/union.rs:382
example : ∀ dbg, SameSetOk ((TineTree.fromRawInterval (α := Int) (.rightOpen 0 3)).union dbg
    (TineTree.fromRawInterval (.upFrom 13)) >>= (·.intervals dbg)) [.rightOpen 0 3, .upFrom 13] := by decide

-- src/test/tine_tree/union.rs:383
example : ∀ dbg, SameSetOk ((TineTree.fromRawInterval (α := Int) (.rightOpen 0 3)).union dbg
    (TineTree.fromRawInterval (.to 13)) >>= (·.intervals dbg)) [.to 13] := by decide

-- src/test/tine_tree/union.rs:384
example : ∀ dbg, SameSetOk ((TineTree.fromRawInterval (α := Int) (.rightOpen 0 3)).union dbg
    (TineTree.fromRawInterval (.frm 13)) >>= (·.intervals dbg)) [.rightOpen 0 3, .frm 13] := by decide

-- src/test/tine_tree/union.rs:385
example : ∀ dbg, SameSetOk ((TineTree.fromRawInterval (α := Int) (.rightOpen 0 3)).union dbg
    (TineTree.fromRawInterval .full) >>= (·.intervals dbg)) [.full] := by decide

-- src/test/tine_tree/union.rs:392
example : ∀ dbg, SameSetOk ((TineTree.fromRawInterval (α := Int) (.closed 0 3)).union dbg
    (TineTree.fromRawInterval .empty) >>= (·.intervals dbg)) [.closed 0 3] := by decide

-- src/test/tine_tree/union.rs:393
example : ∀ dbg, SameSetOk ((TineTree.fromRawInterval (α := Int) (.closed 0 3)).union dbg
    (TineTree.fromRawInterval (.point 3)) >>= (·.intervals dbg)) [.closed 0 3] := by decide

-- src/test/tine_tree/union.rs:394
example : ∀ dbg, SameSetOk ((TineTree.fromRawInterval (α := Int) (.closed 0 3)).union dbg
    (TineTree.fromRawInterval (.opn 0 3)) >>= (·.intervals dbg)) [.closed 0 3] := by decide

-- src/test/tine_tree/union.rs:395
example : ∀ dbg, SameSetOk ((TineTree.fromRawInterval (α := Int) (.closed 0 3)).union dbg
    (TineTree.fromRawInterval (.leftOpen 0 3)) >>= (·.intervals dbg)) [.closed 0 3] := by decide

-- src/test/tine_tree/union.rs:396
example : ∀ dbg, SameSetOk ((TineTree.fromRawInterval (α := Int) (.closed 0 3)).union dbg
    (TineTree.fromRawInterval (.rightOpen 0 3)) >>= (·.intervals dbg)) [.closed 0 3] := by decide

-- src/test/tine_tree/union.rs:397
example : ∀ dbg, SameSetOk ((TineTree.fromRawInterval (α := Int) (.closed 0 3)).union dbg
    (TineTree.fromRawInterval (.closed 0 3)) >>= (·.intervals dbg)) [.closed 0 3] := by decide

-- src/test/tine_tree/union.rs:398
example : ∀ dbg, SameSetOk ((TineTree.fromRawInterval (α := Int) (.closed 0 3)).union dbg
    (TineTree.fromRawInterval (.upTo 3)) >>= (·.intervals dbg)) [.to 3] := by decide

-- src/test/tine_tree/union.rs:399
example : ∀ dbg, SameSetOk ((TineTree.fromRawInterval (α := Int) (.closed 0 3)).union dbg
    (TineTree.fromRawInterval (.upFrom 3)) >>= (·.intervals dbg)) [.frm 0] := by decide

-- src/test/tine_tree/union.rs:400
example : ∀ dbg, SameSetOk ((TineTree.fromRawInterval (α := Int) (.closed 0 3)).union dbg
    (TineTree.fromRawInterval (.to 3)) >>= (·.intervals dbg)) [.to 3] := by decide

-- src/test/tine_tree/union.rs:401
example : ∀ dbg, SameSetOk ((TineTree.fromRawInterval (α := Int) (.closed 0 3)).union dbg
    (TineTree.fromRawInterval (.frm 3)) >>= (·.intervals dbg)) [.frm 0] := by decide

-- src/test/tine_tree/union.rs:402
example : ∀ dbg, SameSetOk ((TineTree.fromRawInterval (α := Int) (.closed 0 3)).union dbg
    (TineTree.fromRawInterval .full) >>= (·.intervals dbg)) [.full] := by decide

-- src/test/tine_tree/union.rs:409
example : ∀ dbg, SameSetOk ((TineTree.fromRawInterval (α := Int) (.closed 0 3)).union dbg
    (TineTree.fromRawInterval .empty) >>= (·.intervals dbg)) [.closed 0 3] := by decide

-- src/test/tine_tree/union.rs:410
example : ∀ dbg, SameSetOk ((TineTree.fromRawInterval (α := Int) (.closed 0 3)).union dbg
    (TineTree.fromRawInterval (.point (-3))) >>= (·.intervals dbg)) [.closed 0 3, .point (-3)] := by decide

-- src/test/tine_tree/union.rs:411
example : ∀ dbg, SameSetOk ((TineTree.fromRawInterval (α := Int) (.closed 0 3)).union dbg
    (TineTree.fromRawInterval (.opn (-3) (-1))) >>= (·.intervals dbg)) [.closed 0 3, .opn (-3) (-1)] := by decide

-- src/test/tine_tree/union.rs:412
example : ∀ dbg, SameSetOk ((TineTree.fromRawInterval (α := Int) (.closed 0 3)).union dbg
    (TineTree.fromRawInterval (.leftOpen (-3) (-1))) >>= (·.intervals dbg)) [.closed 0 3, .leftOpen (-3) (-1)] := by decide

-- src/test/tine_tree/union.rs:413
example : ∀ dbg, SameSetOk ((TineTree.fromRawInterval (α := Int) (.closed 0 3)).union dbg
    (TineTree.fromRawInterval (.rightOpen (-3) (-1))) >>= (·.intervals dbg)) [.closed 0 3, .rightOpen (-3) (-1)] := by decide

-- src/test/tine_tree/union.rs:414
example : ∀ dbg, SameSetOk ((TineTree.fromRawInterval (α := Int) (.closed 0 3)).union dbg
    (TineTree.fromRawInterval (.closed (-3) (-1))) >>= (·.intervals dbg)) [.closed 0 3, .closed (-3) (-1)] := by decide

-- src/test/tine_tree/union.rs:415
example : ∀ dbg, SameSetOk ((TineTree.fromRawInterval (α := Int) (.closed 0 3)).union dbg
    (TineTree.fromRawInterval (.upTo (-3))) >>= (·.intervals dbg)) [.closed 0 3, .upTo (-3)] := by decide

-- src/test/tine_tree/union.rs:416
example : ∀ dbg, SameSetOk ((TineTree.fromRawInterval (α := Int) (.closed 0 3)).union dbg
    (TineTree.fromRawInterval (.upFrom (-3))) >>= (·.intervals dbg)) [.upFrom (-3)] := by decide

-- src/test/tine_tree/union.rs:417
example : ∀ dbg, SameSetOk ((TineTree.fromRawInterval (α := Int) (.closed 0 3)).union dbg
    (TineTree.fromRawInterval (.to (-3))) >>= (·.intervals dbg)) [.closed 0 3, .to (-3)] := by decide

-- src/test/tine_tree/union.rs:418
example : ∀ dbg, SameSetOk ((TineTree.fromRawInterval (α := Int) (.closed 0 3)).union dbg
    (TineTree.fromRawInterval (.frm (-3))) >>= (·.intervals dbg)) [.frm (-3)] := by decide

-- src/test/tine_tree/union.rs:419
example : ∀ dbg, SameSetOk ((TineTree.fromRawInterval (α := Int) (.closed 0 3)).union dbg
    (TineTree.fromRawInterval .full) >>= (·.intervals dbg)) [.full] := by decide

-- src/test/tine_tree/union.rs:426
example : ∀ dbg, SameSetOk ((TineTree.fromRawInterval (α := Int) (.closed 0 3)).union dbg
    (TineTree.fromRawInterval .empty) >>= (·.intervals dbg)) [.closed 0 3] := by decide

-- src/test/tine_tree/union.rs:427
example : ∀ dbg, SameSetOk ((TineTree.fromRawInterval (α := Int) (.closed 0 3)).union dbg
    (TineTree.fromRawInterval (.point 13)) >>= (·.intervals dbg)) [.closed 0 3, .point 13] := by decide

-- src/test/tine_tree/union.rs:428
example : ∀ dbg, SameSetOk ((TineTree.fromRawInterval (α := Int) (.closed 0 3)).union dbg
    (TineTree.fromRawInterval (.opn 10 13)) >>= (·.intervals dbg)) [.closed 0 3, .opn 10 13] := by decide

-- src/test/tine_tree/union.rs:429
example : ∀ dbg, SameSetOk ((TineTree.fromRawInterval (α := Int) (.closed 0 3)).union dbg
    (TineTree.fromRawInterval (.leftOpen 10 13)) >>= (·.intervals dbg)) [.closed 0 3, .leftOpen 10 13] := by decide

-- src/test/tine_tree/union.rs:430
example : ∀ dbg, SameSetOk ((TineTree.fromRawInterval (α := Int) (.closed 0 3)).union dbg
    (TineTree.fromRawInterval (.rightOpen 10 13)) >>= (·.intervals dbg)) [.closed 0 3, .rightOpen 10 13] := by decide

-- src/test/tine_tree/union.rs:431
example : ∀ dbg, SameSetOk ((TineTree.fromRawInterval (α := Int) (.closed 0 3)).union dbg
    (TineTree.fromRawInterval (.closed 10 13)) >>= (·.intervals dbg)) [.closed 0 3, .closed 10 13] := by decide

-- src/test/tine_tree/union.rs:432
example : ∀ dbg, SameSetOk ((TineTree.fromRawInterval (α := Int) (.closed 0 3)).union dbg
    (TineTree.fromRawInterval (.upTo 13)) >>= (·.intervals dbg)) [.upTo 13] := by decide

-- src/test/tine_tree/union.rs:433
example : ∀ dbg, SameSetOk ((TineTree.fromRawInterval (α := Int) (.closed 0 3)).union dbg
    (TineTree.fromRawInterval (.upFrom 13)) >>= (·.intervals dbg)) [.closed 0 3, .upFrom 13] := by decide

-- src/test/tine_tree/union.rs:434
example : ∀ dbg, SameSetOk ((TineTree.fromRawInterval (α := Int) (.closed 0 3)).union dbg
    (TineTree.fromRawInterval (.to 13)) >>= (·.intervals dbg)) [.to 13] := by decide

-- src/test/tine_tree/union.rs:435
example : ∀ dbg, SameSetOk ((TineTree.fromRawInterval (α := Int) (.closed 0 3)).union dbg
    (TineTree.fromRawInterval (.frm 13)) >>= (·.intervals dbg)) [.closed 0 3, .frm 13] := by decide

-- src/test/tine_tree/union.rs:436
example : ∀ dbg, SameSetOk ((TineTree.fromRawInterval (α := Int) (.closed 0 3)).union dbg
    (TineTree.fromRawInterval .full) >>= (·.intervals dbg)) [.full] := by decide

-- src/test/tine_tree/union.rs:443
example : ∀ dbg, SameSetOk ((TineTree.fromRawInterval (α := Int) (.upTo 3)).union dbg
    (TineTree.fromRawInterval .empty) >>= (·.intervals dbg)) [.upTo 3] := by decide

-- src/test/tine_tree/union.rs:444
example : ∀ dbg, SameSetOk ((TineTree.fromRawInterval (α := Int) (.upTo 3)).union dbg
    (TineTree.fromRawInterval (.point 3)) >>= (·.intervals dbg)) [.to 3] := by decide

-- src/test/tine_tree/union.rs:445
example : ∀ dbg, SameSetOk ((TineTree.fromRawInterval (α := Int) (.upTo 3)).union dbg
    (TineTree.fromRawInterval (.opn 0 3)) >>= (·.intervals dbg)) [.upTo 3] := by decide

-- src/test/tine_tree/union.rs:446
example : ∀ dbg, SameSetOk ((TineTree.fromRawInterval (α := Int) (.upTo 3)).union dbg
    (TineTree.fromRawInterval (.leftOpen 0 3)) >>= (·.intervals dbg)) [.to 3] := by decide

-- src/test/tine_tree/union.rs:447
example : ∀ dbg, SameSetOk ((TineTree.fromRawInterval (α := Int) (.upTo 3)).union dbg
    (TineTree.fromRawInterval (.rightOpen 0 3)) >>= (·.intervals dbg)) [.upTo 3] := by decide

-- src/test/tine_tree/union.rs:448
example : ∀ dbg, SameSetOk ((TineTree.fromRawInterval (α := Int) (.upTo 3)).union dbg
    (TineTree.fromRawInterval (.closed 0 3)) >>= (·.intervals dbg)) [.to 3] := by decide

-- src/test/tine_tree/union.rs:449
example : ∀ dbg, SameSetOk ((TineTree.fromRawInterval (α := Int) (.upTo 3)).union dbg
    (TineTree.fromRawInterval (.upTo 3)) >>= (·.intervals dbg)) [.upTo 3] := by decide

-- src/test/tine_tree/union.rs:450
example : ∀ dbg, SameSetOk ((TineTree.fromRawInterval (α := Int) (.upTo 3)).union dbg
    (TineTree.fromRawInterval (.upFrom 3)) >>= (·.intervals dbg)) [.upTo 3, .upFrom 3] := by decide

-- src/test/tine_tree/union.rs:451
example : ∀ dbg, SameSetOk ((TineTree.fromRawInterval (α := Int) (.upTo 3)).union dbg
    (TineTree.fromRawInterval (.to 3)) >>= (·.intervals dbg)) [.to 3] := by decide

-- src/test/tine_tree/union.rs:452
example : ∀ dbg, SameSetOk ((TineTree.fromRawInterval (α := Int) (.upTo 3)).union dbg
    (TineTree.fromRawInterval (.frm 3)) >>= (·.intervals dbg)) [.full] := by decide

-- src/test/tine_tree/union.rs:453
example : ∀ dbg, SameSetOk ((TineTree.fromRawInterval (α := Int) (.upTo 3)).union dbg
    (TineTree.fromRawInterval .full) >>= (·.intervals dbg)) [.full] := by decide

-- src/test/tine_tree/union.rs:460
example : ∀ dbg, SameSetOk ((TineTree.fromRawInterval (α := Int) (.upTo 3)).union dbg
    (TineTree.fromRawInterval .empty) >>= (·.intervals dbg)) [.upTo 3] := by decide

-- src/test/tine_tree/union.rs:461
example : ∀ dbg, SameSetOk ((TineTree.fromRawInterval (α := Int) (.upTo 3)).union dbg
    (TineTree.fromRawInterval (.point (-3))) >>= (·.intervals dbg)) [.upTo 3] := by decide

-- src/test/tine_tree/union.rs:462
example : ∀ dbg, SameSetOk ((TineTree.fromRawInterval (α := Int) (.upTo 3)).union dbg
    (TineTree.fromRawInterval (.opn (-3) (-1))) >>= (·.intervals dbg)) [.upTo 3] := by decide

-- src/test/tine_tree/union.rs:463
example : ∀ dbg, SameSetOk ((TineTree.fromRawInterval (α := Int) (.upTo 3)).union dbg
    (TineTree.fromRawInterval (.leftOpen (-3) (-1))) >>= (·.intervals dbg)) [.upTo 3] := by decide

-- src/test/tine_tree/union.rs:464
example : ∀ dbg, SameSetOk ((TineTree.fromRawInterval (α := Int) (.upTo 3)).union dbg
    (TineTree.fromRawInterval (.rightOpen (-3) (-1))) >>= (·.intervals dbg)) [.upTo 3] := by decide

-- src/test/tine_tree/union.rs:465
example : ∀ dbg, SameSetOk ((TineTree.fromRawInterval (α := Int) (.upTo 3)).union dbg
    (TineTree.fromRawInterval (.closed (-3) (-1))) >>= (·.intervals dbg)) [.upTo 3] := by decide

-- src/test/tine_tree/union.rs:466
example : ∀ dbg, SameSetOk ((TineTree.fromRawInterval (α := Int) (.upTo 3)).union dbg
    (TineTree.fromRawInterval (.upTo (-3))) >>= (·.intervals dbg)) [.upTo 3] := by decide

-- src/test/tine_tree/union.rs:467
example : ∀ dbg, SameSetOk ((TineTree.fromRawInterval (α := Int) (.upTo 3)).union dbg
    (TineTree.fromRawInterval (.upFrom (-3))) >>= (·.intervals dbg)) [.full] := by decide

-- src/test/tine_tree/union.rs:468
example : ∀ dbg, SameSetOk ((TineTree.fromRawInterval (α := Int) (.upTo 3)).union dbg
    (TineTree.fromRawInterval (.to (-3))) >>= (·.intervals dbg)) [.upTo 3] := by decide

-- src/test/tine_tree/union.rs:469
example : ∀ dbg, SameSetOk ((TineTree.fromRawInterval (α := Int) (.upTo 3)).union dbg
    (TineTree.fromRawInterval (.frm (-3))) >>= (·.intervals dbg)) [.full] := by decide

-- src/test/tine_tree/union.rs:470
example : ∀ dbg, SameSetOk ((TineTree.fromRawInterval (α := Int) (.upTo 3)).union dbg
    (TineTree.fromRawInterval .full) >>= (·.intervals dbg)) [.full] := by decide

-- src/test/tine_tree/union.rs:477
example : ∀ dbg, SameSetOk ((TineTree.fromRawInterval (α := Int) (.upTo 3)).union dbg
    (TineTree.fromRawInterval .empty) >>= (·.intervals dbg)) [.upTo 3] := by decide

-- src/test/tine_tree/union.rs:478
example : ∀ dbg, SameSetOk ((TineTree.fromRawInterval (α := Int) (.upTo 3)).union dbg
    (TineTree.fromRawInterval (.point 13)) >>= (·.intervals dbg)) [.upTo 3, .point 13] := by decide

-- src/test/tine_tree/union.rs:479
example : ∀ dbg, SameSetOk ((TineTree.fromRawInterval (α := Int) (.upTo 3)).union dbg
    (TineTree.fromRawInterval (.opn 10 13)) >>= (·.intervals dbg)) [.upTo 3, .opn 10 13] := by decide

-- src/test/tine_tree/union.rs:480
example : ∀ dbg, SameSetOk ((TineTree.fromRawInterval (α := Int) (.upTo 3)).union dbg
    (TineTree.fromRawInterval (.leftOpen 10 13)) >>= (·.intervals dbg)) [.upTo 3, .leftOpen 10 13] := by decide

-- src/test/tine_tree/union.rs:481
example : ∀ dbg, SameSetOk ((TineTree.fromRawInterval (α := Int) (.upTo 3)).union dbg
    (TineTree.fromRawInterval (.rightOpen 10 13)) >>= (·.intervals dbg)) [.upTo 3, .rightOpen 10 13] := by decide

-- src/test/tine_tree/union.rs:482
example : ∀ dbg, SameSetOk ((TineTree.fromRawInterval (α := Int) (.upTo 3)).union dbg
    (TineTree.fromRawInterval (.closed 10 13)) >>= (·.intervals dbg)) [.upTo 3, .closed 10 13] := by decide

-- src/test/tine_tree/union.rs:483
example : ∀ dbg, SameSetOk ((TineTree.fromRawInterval (α := Int) (.upTo 3)).union dbg
    (TineTree.fromRawInterval (.upTo 13)) >>= (·.intervals dbg)) [.upTo 13] := by decide

-- src/test/tine_tree/union.rs:484
example : ∀ dbg, SameSetOk ((TineTree.fromRawInterval (α := Int) (.upTo 3)).union dbg
    (TineTree.fromRawInterval (.upFrom 13)) >>= (·.intervals dbg)) [.upTo 3, .upFrom 13] := by decide

-- src/test/tine_tree/union.rs:485
example : ∀ dbg, SameSetOk ((TineTree.fromRawInterval (α := Int) (.upTo 3)).union dbg
    (TineTree.fromRawInterval (.to 13)) >>= (·.intervals dbg)) [.to 13] := by decide

-- src/test/tine_tree/union.rs:486
example : ∀ dbg, SameSetOk ((TineTree.fromRawInterval (α := Int) (.upTo 3)).union dbg
    (TineTree.fromRawInterval (.frm 13)) >>= (·.intervals dbg)) [.upTo 3, .frm 13] := by decide

-- src/test/tine_tree/union.rs:487
example : ∀ dbg, SameSetOk ((TineTree.fromRawInterval (α := Int) (.upTo 3)).union dbg
    (TineTree.fromRawInterval .full) >>= (·.intervals dbg)) [.full] := by decide

-- src/test/tine_tree/union.rs:494
example : ∀ dbg, SameSetOk ((TineTree.fromRawInterval (α := Int) (.upFrom 0)).union dbg
    (TineTree.fromRawInterval .empty) >>= (·.intervals dbg)) [.upFrom 0] := by decide

-- src/test/tine_tree/union.rs:495
example : ∀ dbg, SameSetOk ((TineTree.fromRawInterval (α := Int) (.upFrom 0)).union dbg
    (TineTree.fromRawInterval (.point 0)) >>= (·.intervals dbg)) [.frm 0] := by decide

-- src/test/tine_tree/union.rs:496
example : ∀ dbg, SameSetOk ((TineTree.fromRawInterval (α := Int) (.upFrom 0)).union dbg
    (TineTree.fromRawInterval (.opn 0 3)) >>= (·.intervals dbg)) [.upFrom 0] := by decide

-- src/test/tine_tree/union.rs:497
example : ∀ dbg, SameSetOk ((TineTree.fromRawInterval (α := Int) (.upFrom 0)).union dbg
    (TineTree.fromRawInterval (.leftOpen 0 3)) >>= (·.intervals dbg)) [.upFrom 0] := by decide

-- src/test/tine_tree/union.rs:498
example : ∀ dbg, SameSetOk ((TineTree.fromRawInterval (α := Int) (.upFrom 0)).union dbg
    (TineTree.fromRawInterval (.rightOpen 0 3)) >>= (·.intervals dbg)) [.frm 0] := by decide

-- src/test/tine_tree/union.rs:499
example : ∀ dbg, SameSetOk ((TineTree.fromRawInterval (α := Int) (.upFrom 0)).union dbg
    (TineTree.fromRawInterval (.closed 0 3)) >>= (·.intervals dbg)) [.frm 0] := by decide

-- src/test/tine_tree/union.rs:500
example : ∀ dbg, SameSetOk ((TineTree.fromRawInterval (α := Int) (.upFrom 0)).union dbg
    (TineTree.fromRawInterval (.upTo 0)) >>= (·.intervals dbg)) [.upTo 0, .upFrom 0] := by decide

-- src/test/tine_tree/union.rs:501
example : ∀ dbg, SameSetOk ((TineTree.fromRawInterval (α := Int) (.upFrom 0)).union dbg
    (TineTree.fromRawInterval (.upFrom 0)) >>= (·.intervals dbg)) [.upFrom 0] := by decide

-- src/test/tine_tree/union.rs:502
example : ∀ dbg, SameSetOk ((TineTree.fromRawInterval (α := Int) (.upFrom 0)).union dbg
    (TineTree.fromRawInterval (.to 0)) >>= (·.intervals dbg)) [.full] := by decide

-- src/test/tine_tree/union.rs:503
example : ∀ dbg, SameSetOk ((TineTree.fromRawInterval (α := Int) (.upFrom 0)).union dbg
    (TineTree.fromRawInterval (.frm 0)) >>= (·.intervals dbg)) [.frm 0] := by decide

-- src/test/tine_tree/union.rs:504
example : ∀ dbg, SameSetOk ((TineTree.fromRawInterval (α := Int) (.upFrom 0)).union dbg
    (TineTree.fromRawInterval .full) >>= (·.intervals dbg)) [.full] := by decide

-- src/test/tine_tree/union.rs:511
example : ∀ dbg, SameSetOk ((TineTree.fromRawInterval (α := Int) (.upFrom 0)).union dbg
    (TineTree.fromRawInterval .empty) >>= (·.intervals dbg)) [.upFrom 0] := by decide

-- src/test/tine_tree/union.rs:512
example : ∀ dbg, SameSetOk ((TineTree.fromRawInterval (α := Int) (.upFrom 0)).union dbg
    (TineTree.fromRawInterval (.point (-3))) >>= (·.intervals dbg)) [.upFrom 0, .point (-3)] := by decide

-- src/test/tine_tree/union.rs:513
example : ∀ dbg, SameSetOk ((TineTree.fromRawInterval (α := Int) (.upFrom 0)).union dbg
    (TineTree.fromRawInterval (.opn (-3) (-1))) >>= (·.intervals dbg)) [.upFrom 0, .opn (-3) (-1)] := by decide

-- src/test/tine_tree/union.rs:514
example : ∀ dbg, SameSetOk ((TineTree.fromRawInterval (α := Int) (.upFrom 0)).union dbg
    (TineTree.fromRawInterval (.leftOpen (-3) (-1))) >>= (·.intervals dbg)) [.upFrom 0, .leftOpen (-3) (-1)] := by decide

-- src/test/tine_tree/union.rs:515
example : ∀ dbg, SameSetOk ((TineTree.fromRawInterval (α := Int) (.upFrom 0)).union dbg
    (TineTree.fromRawInterval (.rightOpen (-3) (-1))) >>= (·.intervals dbg)) [.upFrom 0, .rightOpen (-3) (-1)] := by decide

-- src/test/tine_tree/union.rs:516
example : ∀ dbg, SameSetOk ((TineTree.fromRawInterval (α := Int) (.upFrom 0)).union dbg
    (TineTree.fromRawInterval (.closed (-3) (-1))) >>= (·.intervals dbg)) [.upFrom 0, .closed (-3) (-1)] := by decide

-- src/test/tine_tree/union.rs:517
example : ∀ dbg, SameSetOk ((TineTree.fromRawInterval (α := Int) (.upFrom 0)).union dbg
    (TineTree.fromRawInterval (.upTo (-3))) >>= (·.intervals dbg)) [.upFrom 0, .upTo (-3)] := by decide

-- src/test/tine_tree/union.rs:518
example : ∀ dbg, SameSetOk ((TineTree.fromRawInterval (α := Int) (.upFrom 0)).union dbg
    (TineTree.fromRawInterval (.upFrom (-3))) >>= (·.intervals dbg)) [.upFrom (-3)] := by decide

-- src/test/tine_tree/union.rs:519
example : ∀ dbg, SameSetOk ((TineTree.fromRawInterval (α := Int) (.upFrom 0)).union dbg
    (TineTree.fromRawInterval (.to (-3))) >>= (·.intervals dbg)) [.upFrom 0, .to (-3)] := by decide

-- src/test/tine_tree/union.rs:520
example : ∀ dbg, SameSetOk ((TineTree.fromRawInterval (α := Int) (.upFrom 0)).union dbg
    (TineTree.fromRawInterval (.frm (-3))) >>= (·.intervals dbg)) [.frm (-3)] := by decide

-- src/test/tine_tree/union.rs:521
example : ∀ dbg, SameSetOk ((TineTree.fromRawInterval (α := Int) (.upFrom 0)).union dbg
    (TineTree.fromRawInterval .full) >>= (·.intervals dbg)) [.full] := by decide

-- src/test/tine_tree/union.rs:528
example : ∀ dbg, SameSetOk ((TineTree.fromRawInterval (α := Int) (.upFrom 0)).union dbg
    (TineTree.fromRawInterval .empty) >>= (·.intervals dbg)) [.upFrom 0] := by decide

-- src/test/tine_tree/union.rs:529
example : ∀ dbg, SameSetOk ((TineTree.fromRawInterval (α := Int) (.upFrom 0)).union dbg
    (TineTree.fromRawInterval (.point 13)) >>= (·.intervals dbg)) [.upFrom 0] := by decide

-- src/test/tine_tree/union.rs:530
example : ∀ dbg, SameSetOk ((TineTree.fromRawInterval (α := Int) (.upFrom 0)).union dbg
    (TineTree.fromRawInterval (.opn 10 13)) >>= (·.intervals dbg)) [.upFrom 0] := by decide

-- src/test/tine_tree/union.rs:531
example : ∀ dbg, SameSetOk ((TineTree.fromRawInterval (α := Int) (.upFrom 0)).union dbg
    (TineTree.fromRawInterval (.leftOpen 10 13)) >>= (·.intervals dbg)) [.upFrom 0] := by decide

-- src/test/tine_tree/union.rs:532
example : ∀ dbg, SameSetOk ((TineTree.fromRawInterval (α := Int) (.upFrom 0)).union dbg
    (TineTree.fromRawInterval (.rightOpen 10 13)) >>= (·.intervals dbg)) [.upFrom 0] := by decide

-- src/test/tine_tree/union.rs:533
example : ∀ dbg, SameSetOk ((TineTree.fromRawInterval (α := Int) (.upFrom 0)).union dbg
    (TineTree.fromRawInterval (.closed 10 13)) >>= (·.intervals dbg)) [.upFrom 0] := by decide

-- src/test/tine_tree/union.rs:534
example : ∀ dbg, SameSetOk ((TineTree.fromRawInterval (α := Int) (.upFrom 0)).union dbg
    (TineTree.fromRawInterval (.upTo 13)) >>= (·.intervals dbg)) [.full] := by decide

-- src/test/tine_tree/union.rs:535
example : ∀ dbg, SameSetOk ((TineTree.fromRawInterval (α := Int) (.upFrom 0)).union dbg
    (TineTree.fromRawInterval (.upFrom 13)) >>= (·.intervals dbg)) [.upFrom 0] := by decide

-- src/test/tine_tree/union.rs:536
example : ∀ dbg, SameSetOk ((TineTree.fromRawInterval (α := Int) (.upFrom 0)).union dbg
    (TineTree.fromRawInterval (.to 13)) >>= (·.intervals dbg)) [.full] := by decide

-- src/test/tine_tree/union.rs:537
example : ∀ dbg, SameSetOk ((TineTree.fromRawInterval (α := Int) (.upFrom 0)).union dbg
    (TineTree.fromRawInterval (.frm 13)) >>= (·.intervals dbg)) [.upFrom 0] := by decide

-- src/test/tine_tree/union.rs:538
example : ∀ dbg, SameSetOk ((TineTree.fromRawInterval (α := Int) (.upFrom 0)).union dbg
    (TineTree.fromRawInterval .full) >>= (·.intervals dbg)) [.full] := by decide

-- src/test/tine_tree/union.rs:545
example : ∀ dbg, SameSetOk ((TineTree.fromRawInterval (α := Int) (.to 3)).union dbg
    (TineTree.fromRawInterval .empty) >>= (·.intervals dbg)) [.to 3] := by decide

-- src/test/tine_tree/union.rs:546
example : ∀ dbg, SameSetOk ((TineTree.fromRawInterval (α := Int) (.to 3)).union dbg
    (TineTree.fromRawInterval (.point 3)) >>= (·.intervals dbg)) [.to 3] := by decide

-- src/test/tine_tree/union.rs:547
example : ∀ dbg, SameSetOk ((TineTree.fromRawInterval (α := Int) (.to 3)).union dbg
    (TineTree.fromRawInterval (.opn 0 3)) >>= (·.intervals dbg)) [.to 3] := by decide

-- src/test/tine_tree/union.rs:548
example : ∀ dbg, SameSetOk ((TineTree.fromRawInterval (α := Int) (.to 3)).union dbg
    (TineTree.fromRawInterval (.leftOpen 0 3)) >>= (·.intervals dbg)) [.to 3] := by decide

-- src/test/tine_tree/union.rs:549
example : ∀ dbg, SameSetOk ((TineTree.fromRawInterval (α := Int) (.to 3)).union dbg
    (TineTree.fromRawInterval (.rightOpen 0 3)) >>= (·.intervals dbg)) [.to 3] := by decide

-- src/test/tine_tree/union.rs:550
example : ∀ dbg, SameSetOk ((TineTree.fromRawInterval (α := Int) (.to 3)).union dbg
    (TineTree.fromRawInterval (.closed 0 3)) >>= (·.intervals dbg)) [.to 3] := by decide

-- src/test/tine_tree/union.rs:551
example : ∀ dbg, SameSetOk ((TineTree.fromRawInterval (α := Int) (.to 3)).union dbg
    (TineTree.fromRawInterval (.upTo 3)) >>= (·.intervals dbg)) [.to 3] := by decide

-- src/test/tine_tree/union.rs:552
example : ∀ dbg, SameSetOk ((TineTree.fromRawInterval (α := Int) (.to 3)).union dbg
    (TineTree.fromRawInterval (.upFrom 3)) >>= (·.intervals dbg)) [.full] := by decide

-- src/test/tine_tree/union.rs:553
example : ∀ dbg, SameSetOk ((TineTree.fromRawInterval (α := Int) (.to 3)).union dbg
    (TineTree.fromRawInterval (.to 3)) >>= (·.intervals dbg)) [.to 3] := by decide

-- src/test/tine_tree/union.rs:554
example : ∀ dbg, SameSetOk ((TineTree.fromRawInterval (α := Int) (.to 3)).union dbg
    (TineTree.fromRawInterval (.frm 3)) >>= (·.intervals dbg)) [.full] := by decide

-- src/test/tine_tree/union.rs:555
example : ∀ dbg, SameSetOk ((TineTree.fromRawInterval (α := Int) (.to 3)).union dbg
    (TineTree.fromRawInterval .full) >>= (·.intervals dbg)) [.full] := by decide

-- src/test/tine_tree/union.rs:562
example : ∀ dbg, SameSetOk ((TineTree.fromRawInterval (α := Int) (.to 3)).union dbg
    (TineTree.fromRawInterval .empty) >>= (·.intervals dbg)) [.to 3] := by decide

-- src/test/tine_tree/union.rs:563
example : ∀ dbg, SameSetOk ((TineTree.fromRawInterval (α := Int) (.to 3)).union dbg
    (TineTree.fromRawInterval (.point (-3))) >>= (·.intervals dbg)) [.to 3] := by decide

-- src/test/tine_tree/union.rs:564
example : ∀ dbg, SameSetOk ((TineTree.fromRawInterval (α := Int) (.to 3)).union dbg
    (TineTree.fromRawInterval (.opn (-3) (-1))) >>= (·.intervals dbg)) [.to 3] := by decide

-- src/test/tine_tree/union.rs:565
example : ∀ dbg, SameSetOk ((TineTree.fromRawInterval (α := Int) (.to 3)).union dbg
    (TineTree.fromRawInterval (.leftOpen (-3) (-1))) >>= (·.intervals dbg)) [.to 3] := by decide

-- src/test/tine_tree/union.rs:566
example : ∀ dbg, SameSetOk ((TineTree.fromRawInterval (α := Int) (.to 3)).union dbg
    (TineTree.fromRawInterval (.rightOpen (-3) (-1))) >>= (·.intervals dbg)) [.to 3] := by decide

-- src/test/tine_tree/union.rs:567
example : ∀ dbg, SameSetOk ((TineTree.fromRawInterval (α := Int) (.to 3)).union dbg
    (TineTree.fromRawInterval (.closed (-3) (-1))) >>= (·.intervals dbg)) [.to 3] := by decide

-- src/test/tine_tree/union.rs:568
example : ∀ dbg, SameSetOk ((TineTree.fromRawInterval (α := Int) (.to 3)).union dbg
    (TineTree.fromRawInterval (.upTo (-3))) >>= (·.intervals dbg)) [.to 3] := by decide

-- src/test/tine_tree/union.rs:569
example : ∀ dbg, SameSetOk ((TineTree.fromRawInterval (α := Int) (.to 3)).union dbg
    (TineTree.fromRawInterval (.upFrom (-3))) >>= (·.intervals dbg)) [.full] := by decide

-- src/test/tine_tree/union.rs:570
example : ∀ dbg, SameSetOk ((TineTree.fromRawInterval (α := Int) (.to 3)).union dbg
    (TineTree.fromRawInterval (.to (-3))) >>= (·.intervals dbg)) [.to 3] := by decide

-- src/test/tine_tree/union.rs:571
example : ∀ dbg, SameSetOk ((TineTree.fromRawInterval (α := Int) (.to 3)).union dbg
    (TineTree.fromRawInterval (.frm (-3))) >>= (·.intervals dbg)) [.full] := by decide

-- src/test/tine_tree/union.rs:572
example : ∀ dbg, SameSetOk ((TineTree.fromRawInterval (α := Int) (.to 3)).union dbg
    (TineTree.fromRawInterval .full) >>= (·.intervals dbg)) [.full] := by decide

-- src/test/tine_tree/union.rs:579
example : ∀ dbg, SameSetOk ((TineTree.fromRawInterval (α := Int) (.to 3)).union dbg
    (TineTree.fromRawInterval .empty) >>= (·.intervals dbg)) [.to 3] := by decide

-- src/test/tine_tree/union.rs:580
example : ∀ dbg, SameSetOk ((TineTree.fromRawInterval (α := Int) (.to 3)).union dbg
    (TineTree.fromRawInterval (.point 13)) >>= (·.intervals dbg)) [.to 3, .point 13] := by decide

-- src/test/tine_tree/union.rs:581
example : ∀ dbg, SameSetOk ((TineTree.fromRawInterval (α := Int) (.to 3)).union dbg
    (TineTree.fromRawInterval (.opn 10 13)) >>= (·.intervals dbg)) [.to 3, .opn 10 13] := by decide

-- src/test/tine_tree/union.rs:582
example : ∀ dbg, SameSetOk ((TineTree.fromRawInterval (α := Int) (.to 3)).union dbg
    (TineTree.fromRawInterval (.leftOpen 10 13)) >>= (·.intervals dbg)) [.to 3, .leftOpen 10 13] := by decide

-- src/test/tine_tree/union.rs:583
example : ∀ dbg, SameSetOk ((TineTree.fromRawInterval (α := Int) (.to 3)).union dbg
    (TineTree.fromRawInterval (.rightOpen 10 13)) >>= (·.intervals dbg)) [.to 3, .rightOpen 10 13] := by decide

-- src/test/tine_tree/union.rs:584
example : ∀ dbg, SameSetOk ((TineTree.fromRawInterval (α := Int) (.to 3)).union dbg
    (TineTree.fromRawInterval (.closed 10 13)) >>= (·.intervals dbg)) [.to 3, .closed 10 13] := by decide

-- src/test/tine_tree/union.rs:585
example : ∀ dbg, SameSetOk ((TineTree.fromRawInterval (α := Int) (.to 3)).union dbg
    (TineTree.fromRawInterval (.upTo 13)) >>= (·.intervals dbg)) [.upTo 13] := by decide

-- src/test/tine_tree/union.rs:586
example : ∀ dbg, SameSetOk ((TineTree.fromRawInterval (α := Int) (.to 3)).union dbg
    (TineTree.fromRawInterval (.upFrom 13)) >>= (·.intervals dbg)) [.to 3, .upFrom 13] := by decide

-- src/test/tine_tree/union.rs:587
example : ∀ dbg, SameSetOk ((TineTree.fromRawInterval (α := Int) (.to 3)).union dbg
    (TineTree.fromRawInterval (.to 13)) >>= (·.intervals dbg)) [.to 13] := by decide

-- src/test/tine_tree/union.rs:588
example : ∀ dbg, SameSetOk ((TineTree.fromRawInterval (α := Int) (.to 3)).union dbg
    (TineTree.fromRawInterval (.frm 13)) >>= (·.intervals dbg)) [.to 3, .frm 13] := by decide

-- src/test/tine_tree/union.rs:589
example : ∀ dbg, SameSetOk ((TineTree.fromRawInterval (α := Int) (.to 3)).union dbg
    (TineTree.fromRawInterval .full) >>= (·.intervals dbg)) [.full] := by decide

-- src/test/tine_tree/union.rs:596
example : ∀ dbg, SameSetOk ((TineTree.fromRawInterval (α := Int) (.frm 0)).union dbg
    (TineTree.fromRawInterval .empty) >>= (·.intervals dbg)) [.frm 0] := by decide

-- src/test/tine_tree/union.rs:597
example : ∀ dbg, SameSetOk ((TineTree.fromRawInterval (α := Int) (.frm 0)).union dbg
    (TineTree.fromRawInterval (.point 0)) >>= (·.intervals dbg)) [.frm 0] := by decide

-- src/test/tine_tree/union.rs:598
example : ∀ dbg, SameSetOk ((TineTree.fromRawInterval (α := Int) (.frm 0)).union dbg
    (TineTree.fromRawInterval (.opn 0 3)) >>= (·.intervals dbg)) [.frm 0] := by decide

-- src/test/tine_tree/union.rs:599
example : ∀ dbg, SameSetOk ((TineTree.fromRawInterval (α := Int) (.frm 0)).union dbg
    (TineTree.fromRawInterval (.leftOpen 0 3)) >>= (·.intervals dbg)) [.frm 0] := by decide

-- src/test/tine_tree/union.rs:600
example : ∀ dbg, SameSetOk ((TineTree.fromRawInterval (α := Int) (.frm 0)).union dbg
    (TineTree.fromRawInterval (.rightOpen 0 3)) >>= (·.intervals dbg)) [.frm 0] := by decide

-- src/test/tine_tree/union.rs:602
example : ∀ dbg, SameSetOk ((TineTree.fromRawInterval (α := Int) (.frm 0)).union dbg
    (TineTree.fromRawInterval (.closed 0 3)) >>= (·.intervals dbg)) [.frm 0] := by decide

-- src/test/tine_tree/union.rs:603
example : ∀ dbg, SameSetOk ((TineTree.fromRawInterval (α := Int) (.frm 0)).union dbg
    (TineTree.fromRawInterval (.upTo 0)) >>= (·.intervals dbg)) [.full] := by decide

-- src/test/tine_tree/union.rs:604
example : ∀ dbg, SameSetOk ((TineTree.fromRawInterval (α := Int) (.frm 0)).union dbg
    (TineTree.fromRawInterval (.upFrom 0)) >>= (·.intervals dbg)) [.frm 0] := by decide

-- src/test/tine_tree/union.rs:605
example : ∀ dbg, SameSetOk ((TineTree.fromRawInterval (α := Int) (.frm 0)).union dbg
    (TineTree.fromRawInterval (.to 0)) >>= (·.intervals dbg)) [.full] := by decide

-- src/test/tine_tree/union.rs:606
example : ∀ dbg, SameSetOk ((TineTree.fromRawInterval (α := Int) (.frm 0)).union dbg
    (TineTree.fromRawInterval (.frm 0)) >>= (·.intervals dbg)) [.frm 0] := by decide

-- src/test/tine_tree/union.rs:607
example : ∀ dbg, SameSetOk ((TineTree.fromRawInterval (α := Int) (.frm 0)).union dbg
    (TineTree.fromRawInterval .full) >>= (·.intervals dbg)) [.full] := by decide

-- src/test/tine_tree/union.rs:614
example : ∀ dbg, SameSetOk ((TineTree.fromRawInterval (α := Int) (.frm 0)).union dbg
    (TineTree.fromRawInterval .empty) >>= (·.intervals dbg)) [.frm 0] := by decide

-- src/test/tine_tree/union.rs:615
example : ∀ dbg, SameSetOk ((TineTree.fromRawInterval (α := Int) (.frm 0)).union dbg
    (TineTree.fromRawInterval (.point (-3))) >>= (·.intervals dbg)) [.frm 0, .point (-3)] := by decide

-- src/test/tine_tree/union.rs:616
example : ∀ dbg, SameSetOk ((TineTree.fromRawInterval (α := Int) (.frm 0)).union dbg
    (TineTree.fromRawInterval (.opn (-3) (-1))) >>= (·.intervals dbg)) [.frm 0, .opn (-3) (-1)] := by decide

-- src/test/tine_tree/union.rs:617
example : ∀ dbg, SameSetOk ((TineTree.fromRawInterval (α := Int) (.frm 0)).union dbg
    (TineTree.fromRawInterval (.leftOpen (-3) (-1))) >>= (·.intervals dbg)) [.frm 0, .leftOpen (-3) (-1)] := by decide

-- src/test/tine_tree/union.rs:618
example : ∀ dbg, SameSetOk ((TineTree.fromRawInterval (α := Int) (.frm 0)).union dbg
    (TineTree.fromRawInterval (.rightOpen (-3) (-1))) >>= (·.intervals dbg)) [.frm 0, .rightOpen (-3) (-1)] := by decide

-- src/test/tine_tree/union.rs:619
example : ∀ dbg, SameSetOk ((TineTree.fromRawInterval (α := Int) (.frm 0)).union dbg
    (TineTree.fromRawInterval (.closed (-3) (-1))) >>= (·.intervals dbg)) [.frm 0, .closed (-3) (-1)] := by decide

-- src/test/tine_tree/union.rs:620
example : ∀ dbg, SameSetOk ((TineTree.fromRawInterval (α := Int) (.frm 0)).union dbg
    (TineTree.fromRawInterval (.upTo (-3))) >>= (·.intervals dbg)) [.frm 0, .upTo (-3)] := by decide

-- src/test/tine_tree/union.rs:621
example : ∀ dbg, SameSetOk ((TineTree.fromRawInterval (α := Int) (.frm 0)).union dbg
    (TineTree.fromRawInterval (.upFrom (-3))) >>= (·.intervals dbg)) [.upFrom (-3)] := by decide

-- src/test/tine_tree/union.rs:622
example : ∀ dbg, SameSetOk ((TineTree.fromRawInterval (α := Int) (.frm 0)).union dbg
    (TineTree.fromRawInterval (.to (-3))) >>= (·.intervals dbg)) [.frm 0, .to (-3)] := by decide

-- src/test/tine_tree/union.rs:623
example : ∀ dbg, SameSetOk ((TineTree.fromRawInterval (α := Int) (.frm 0)).union dbg
    (TineTree.fromRawInterval (.frm (-3))) >>= (·.intervals dbg)) [.frm (-3)] := by decide

-- src/test/tine_tree/union.rs:624
example : ∀ dbg, SameSetOk ((TineTree.fromRawInterval (α := Int) (.frm 0)).union dbg
    (TineTree.fromRawInterval .full) >>= (·.intervals dbg)) [.full] := by decide

-- src/test/tine_tree/union.rs:631
example : ∀ dbg, SameSetOk ((TineTree.fromRawInterval (α := Int) (.frm 0)).union dbg
    (TineTree.fromRawInterval .empty) >>= (·.intervals dbg)) [.frm 0] := by decide

-- src/test/tine_tree/union.rs:632
example : ∀ dbg, SameSetOk ((TineTree.fromRawInterval (α := Int) (.frm 0)).union dbg
    (TineTree.fromRawInterval (.point 13)) >>= (·.intervals dbg)) [.frm 0] := by decide

-- src/test/tine_tree/union.rs:633
example : ∀ dbg, SameSetOk ((TineTree.fromRawInterval (α := Int) (.frm 0)).union dbg
    (TineTree.fromRawInterval (.opn 10 13)) >>= (·.intervals dbg)) [.frm 0] := by decide

-- src/test/tine_tree/union.rs:634
example : ∀ dbg, SameSetOk ((TineTree.fromRawInterval (α := Int) (.frm 0)).union dbg
    (TineTree.fromRawInterval (.leftOpen 10 13)) >>= (·.intervals dbg)) [.frm 0] := by decide

-- src/test/tine_tree/union.rs:635
example : ∀ dbg, SameSetOk ((TineTree.fromRawInterval (α := Int) (.frm 0)).union dbg
    (TineTree.fromRawInterval (.rightOpen 10 13)) >>= (·.intervals dbg)) [.frm 0] := by decide

-- src/test/tine_tree/union.rs:636
example : ∀ dbg, SameSetOk ((TineTree.fromRawInterval (α := Int) (.frm 0)).union dbg
    (TineTree.fromRawInterval (.closed 10 13)) >>= (·.intervals dbg)) [.frm 0] := by decide

-- src/test/tine_tree/union.rs:637
example : ∀ dbg, SameSetOk ((TineTree.fromRawInterval (α := Int) (.frm 0)).union dbg
    (TineTree.fromRawInterval (.upTo 13)) >>= (·.intervals dbg)) [.full] := by decide

-- src/test/tine_tree/union.rs:638
example : ∀ dbg, SameSetOk ((TineTree.fromRawInterval (α := Int) (.frm 0)).union dbg
    (TineTree.fromRawInterval (.upFrom 13)) >>= (·.intervals dbg)) [.frm 0] := by decide

-- src/test/tine_tree/union.rs:639
example : ∀ dbg, SameSetOk ((TineTree.fromRawInterval (α := Int) (.frm 0)).union dbg
    (TineTree.fromRawInterval (.to 13)) >>= (·.intervals dbg)) [.full] := by decide

-- src/test/tine_tree/union.rs:640
example : ∀ dbg, SameSetOk ((TineTree.fromRawInterval (α := Int) (.frm 0)).union dbg
    (TineTree.fromRawInterval (.frm 13)) >>= (·.intervals dbg)) [.frm 0] := by decide

-- src/test/tine_tree/union.rs:641
example : ∀ dbg, SameSetOk ((TineTree.fromRawInterval (α := Int) (.frm 0)).union dbg
    (TineTree.fromRawInterval .full) >>= (·.intervals dbg)) [.full] := by decide

-- src/test/tine_tree/union.rs:648
example : ∀ dbg, SameSetOk ((TineTree.fromRawInterval (α := Int) .full).union dbg
    (TineTree.fromRawInterval .empty) >>= (·.intervals dbg)) [.full] := by decide

-- src/test/tine_tree/union.rs:649
example : ∀ dbg, SameSetOk ((TineTree.fromRawInterval (α := Int) .full).union dbg
    (TineTree.fromRawInterval (.point 0)) >>= (·.intervals dbg)) [.full] := by decide

-- src/test/tine_tree/union.rs:650
example : ∀ dbg, SameSetOk ((TineTree.fromRawInterval (α := Int) .full).union dbg
    (TineTree.fromRawInterval (.opn 0 3)) >>= (·.intervals dbg)) [.full] := by decide

-- src/test/tine_tree/union.rs:651
example : ∀ dbg, SameSetOk ((TineTree.fromRawInterval (α := Int) .full).union dbg
    (TineTree.fromRawInterval (.leftOpen 0 3)) >>= (·.intervals dbg)) [.full] := by decide

-- src/test/tine_tree/union.rs:652
example : ∀ dbg, SameSetOk ((TineTree.fromRawInterval (α := Int) .full).union dbg
    (TineTree.fromRawInterval (.rightOpen 0 3)) >>= (·.intervals dbg)) [.full] := by decide

-- src/test/tine_tree/union.rs:653
example : ∀ dbg, SameSetOk ((TineTree.fromRawInterval (α := Int) .full).union dbg
    (TineTree.fromRawInterval (.closed 0 3)) >>= (·.intervals dbg)) [.full] := by decide

-- src/test/tine_tree/union.rs:654
example : ∀ dbg, SameSetOk ((TineTree.fromRawInterval (α := Int) .full).union dbg
    (TineTree.fromRawInterval (.upTo 0)) >>= (·.intervals dbg)) [.full] := by decide

-- src/test/tine_tree/union.rs:655
example : ∀ dbg, SameSetOk ((TineTree.fromRawInterval (α := Int) .full).union dbg
    (TineTree.fromRawInterval (.upFrom 0)) >>= (·.intervals dbg)) [.full] := by decide

-- src/test/tine_tree/union.rs:656
example : ∀ dbg, SameSetOk ((TineTree.fromRawInterval (α := Int) .full).union dbg
    (TineTree.fromRawInterval (.to 0)) >>= (·.intervals dbg)) [.full] := by decide

-- src/test/tine_tree/union.rs:657
example : ∀ dbg, SameSetOk ((TineTree.fromRawInterval (α := Int) .full).union dbg
    (TineTree.fromRawInterval (.frm 0)) >>= (·.intervals dbg)) [.full] := by decide

-- src/test/tine_tree/union.rs:658
example : ∀ dbg, SameSetOk ((TineTree.fromRawInterval (α := Int) .full).union dbg
    (TineTree.fromRawInterval .full) >>= (·.intervals dbg)) [.full] := by decide

-- src/test/tine_tree/intersect.rs:37
example : ∀ dbg, ((.ok (TineTree.fromRawInterval .full : TineTree Int) : Except Panic _)
      >>= (·.intersectInPlace dbg (.upTo 0))
      >>= (·.intersectInPlace dbg (.point 5))
      >>= (·.intersectInPlace dbg .empty)
      >>= (·.intersectInPlace dbg (.opn 10 15))
      >>= (·.intersectInPlace dbg (.leftOpen 20 25))
      >>= (·.intersectInPlace dbg (.rightOpen 30 35))
      >>= (·.intersectInPlace dbg .empty)
      >>= (·.intersectInPlace dbg (.closed 40 45))
      >>= (·.intersectInPlace dbg (.upFrom 50))
      >>= (·.intersectInPlace dbg .empty)
      >>= (·.intervals dbg)) =
    .ok [] := by decide

-- src/test/tine_tree/intersect.rs:54
example : ∀ dbg, ((.ok (TineTree.fromRawInterval .full : TineTree Int) : Except Panic _)
      >>= (·.intersectInPlace dbg (.upTo 100))
      >>= (·.intersectInPlace dbg (.opn 0 50))
      >>= (·.intersectInPlace dbg .full)
      >>= (·.intersectInPlace dbg (.leftOpen 5 45))
      >>= (·.intersectInPlace dbg (.rightOpen 10 40))
      >>= (·.intersectInPlace dbg .full)
      >>= (·.intersectInPlace dbg (.closed 15 35))
      >>= (·.intersectInPlace dbg (.upFrom 20))
      >>= (·.intersectInPlace dbg (.point 25))
      >>= (·.intervals dbg)) =
    .ok [.point 25] := by decide

-- src/test/tine_tree/intersect.rs:68
example : ∀ dbg, SameSetOk ((TineTree.fromRawInterval (α := Int) .empty).intersect dbg
    (TineTree.fromRawInterval .empty) >>= (·.intervals dbg)) [] := by decide

-- src/test/tine_tree/intersect.rs:69
example : ∀ dbg, SameSetOk ((TineTree.fromRawInterval (α := Int) .empty).intersect dbg
    (TineTree.fromRawInterval (.point 3)) >>= (·.intervals dbg)) [] := by decide

-- src/test/tine_tree/intersect.rs:70
example : ∀ dbg, SameSetOk ((TineTree.fromRawInterval (α := Int) .empty).intersect dbg
    (TineTree.fromRawInterval (.opn 0 3)) >>= (·.intervals dbg)) [] := by decide

-- src/test/tine_tree/intersect.rs:71
example : ∀ dbg, SameSetOk ((TineTree.fromRawInterval (α := Int) .empty).intersect dbg
    (TineTree.fromRawInterval (.leftOpen 0 3)) >>= (·.intervals dbg)) [] := by decide

-- src/test/tine_tree/intersect.rs:72
example : ∀ dbg, SameSetOk ((TineTree.fromRawInterval (α := Int) .empty).intersect dbg
    (TineTree.fromRawInterval (.rightOpen 0 3)) >>= (·.intervals dbg)) [] := by decide

-- src/test/tine_tree/intersect.rs:73
example : ∀ dbg, SameSetOk ((TineTree.fromRawInterval (α := Int) .empty).intersect dbg
    (TineTree.fromRawInterval (.closed 0 3)) >>= (·.intervals dbg)) [] := by decide

-- src/test/tine_tree/intersect.rs:74
example : ∀ dbg, SameSetOk ((TineTree.fromRawInterval (α := Int) .empty).intersect dbg
    (TineTree.fromRawInterval (.upTo 3)) >>= (·.intervals dbg)) [] := by decide

-- src/test/tine_tree/intersect.rs:75
example : ∀ dbg, SameSetOk ((TineTree.fromRawInterval (α := Int) .empty).intersect dbg
    (TineTree.fromRawInterval (.upFrom 3)) >>= (·.intervals dbg)) [] := by decide

-- src/test/tine_tree/intersect.rs:76
example : ∀ dbg, SameSetOk ((TineTree.fromRawInterval (α := Int) .empty).intersect dbg
    (TineTree.fromRawInterval (.to 3)) >>= (·.intervals dbg)) [] := by decide

-- src/test/tine_tree/intersect.rs:77
example : ∀ dbg, SameSetOk ((TineTree.fromRawInterval (α := Int) .empty).intersect dbg
    (TineTree.fromRawInterval (.frm 3)) >>= (·.intervals dbg)) [] := by decide

-- src/test/tine_tree/intersect.rs:78
example : ∀ dbg, SameSetOk ((TineTree.fromRawInterval (α := Int) .empty).intersect dbg
    (TineTree.fromRawInterval .full) >>= (·.intervals dbg)) [] := by decide

-- src/test/tine_tree/intersect.rs:85
example : ∀ dbg, SameSetOk ((TineTree.fromRawInterval (α := Int) (.point 2)).intersect dbg
    (TineTree.fromRawInterval .empty) >>= (·.intervals dbg)) [] := by decide

-- src/test/tine_tree/intersect.rs:86
example : ∀ dbg, SameSetOk ((TineTree.fromRawInterval (α := Int) (.point 2)).intersect dbg
    (TineTree.fromRawInterval (.point 2)) >>= (·.intervals dbg)) [.point 2] := by decide

-- src/test/tine_tree/intersect.rs:87
example : ∀ dbg, SameSetOk ((TineTree.fromRawInterval (α := Int) (.point 2)).intersect dbg
    (TineTree.fromRawInterval (.opn 0 3)) >>= (·.intervals dbg)) [.point 2] := by decide

-- src/test/tine_tree/intersect.rs:88
example : ∀ dbg, SameSetOk ((TineTree.fromRawInterval (α := Int) (.point 2)).intersect dbg
    (TineTree.fromRawInterval (.leftOpen 0 3)) >>= (·.intervals dbg)) [.point 2] := by decide

-- src/test/tine_tree/intersect.rs:89
example : ∀ dbg, SameSetOk ((TineTree.fromRawInterval (α := Int) (.point 2)).intersect dbg
    (TineTree.fromRawInterval (.rightOpen 0 3)) >>= (·.intervals dbg)) [.point 2] := by decide

-- src/test/tine_tree/intersect.rs:90
example : ∀ dbg, SameSetOk ((TineTree.fromRawInterval (α := Int) (.point 2)).intersect dbg
    (TineTree.fromRawInterval (.closed 0 3)) >>= (·.intervals dbg)) [.point 2] := by decide

-- src/test/tine_tree/intersect.rs:91
example : ∀ dbg, SameSetOk ((TineTree.fromRawInterval (α := Int) (.point 2)).intersect dbg
    (TineTree.fromRawInterval (.upTo 2)) >>= (·.intervals dbg)) [] := by decide

-- src/test/tine_tree/intersect.rs:92
example : ∀ dbg, SameSetOk ((TineTree.fromRawInterval (α := Int) (.point 2)).intersect dbg
    (TineTree.fromRawInterval (.upFrom 2)) >>= (·.intervals dbg)) [] := by decide

-- src/test/tine_tree/intersect.rs:93
example : ∀ dbg, SameSetOk ((TineTree.fromRawInterval (α := Int) (.point 2)).intersect dbg
    (TineTree.fromRawInterval (.to 2)) >>= (·.intervals dbg)) [.point 2] := by decide

-- src/test/tine_tree/intersect.rs:94
example : ∀ dbg, SameSetOk ((TineTree.fromRawInterval (α := Int) (.point 2)).intersect dbg
    (TineTree.fromRawInterval (.frm 2)) >>= (·.intervals dbg)) [.point 2] := by decide

-- src/test/tine_tree/intersect.rs:95
example : ∀ dbg, SameSetOk ((TineTree.fromRawInterval (α := Int) (.point 2)).intersect dbg
    (TineTree.fromRawInterval .full) >>= (·.intervals dbg)) [.point 2] := by decide

-- src/test/tine_tree/intersect.rs:102
example : ∀ dbg, SameSetOk ((TineTree.fromRawInterval (α := Int) (.point 2)).intersect dbg
    (TineTree.fromRawInterval .empty) >>= (·.intervals dbg)) [] := by decide

-- src/test/tine_tree/intersect.rs:103
example : ∀ dbg, SameSetOk ((TineTree.fromRawInterval (α := Int) (.point 2)).intersect dbg
    (TineTree.fromRawInterval (.point (-1))) >>= (·.intervals dbg)) [] := by decide

-- src/test/tine_tree/intersect.rs:104
example : ∀ dbg, SameSetOk ((TineTree.fromRawInterval (α := Int) (.point 2)).intersect dbg
    (TineTree.fromRawInterval (.opn (-3) (-1))) >>= (·.intervals dbg)) [] := by decide

-- src/test/tine_tree/intersect.rs:105
example : ∀ dbg, SameSetOk ((TineTree.fromRawInterval (α := Int) (.point 2)).intersect dbg
    (TineTree.fromRawInterval (.leftOpen (-3) (-1))) >>= (·.intervals dbg)) [] := by decide

-- src/test/tine_tree/intersect.rs:106
example : ∀ dbg, SameSetOk ((TineTree.fromRawInterval (α := Int) (.point 2)).intersect dbg
    (TineTree.fromRawInterval (.rightOpen (-3) (-1))) >>= (·.intervals dbg)) [] := by decide

-- src/test/tine_tree/intersect.rs:107
example : ∀ dbg, SameSetOk ((TineTree.fromRawInterval (α := Int) (.point 2)).intersect dbg
    (TineTree.fromRawInterval (.closed (-3) (-1))) >>= (·.intervals dbg)) [] := by decide

-- src/test/tine_tree/intersect.rs:108
example : ∀ dbg, SameSetOk ((TineTree.fromRawInterval (α := Int) (.point 2)).intersect dbg
    (TineTree.fromRawInterval (.upTo (-3))) >>= (·.intervals dbg)) [] := by decide

-- src/test/tine_tree/intersect.rs:109
example : ∀ dbg, SameSetOk ((TineTree.fromRawInterval (α := Int) (.point 2)).intersect dbg
    (TineTree.fromRawInterval (.upFrom (-3))) >>= (·.intervals dbg)) [.point 2] := by decide

-- src/test/tine_tree/intersect.rs:110
example : ∀ dbg, SameSetOk ((TineTree.fromRawInterval (α := Int) (.point 2)).intersect dbg
    (TineTree.fromRawInterval (.to (-3))) >>= (·.intervals dbg)) [] := by decide

-- src/test/tine_tree/intersect.rs:111
example : ∀ dbg, SameSetOk ((TineTree.fromRawInterval (α := Int) (.point 2)).intersect dbg
    (TineTree.fromRawInterval (.frm (-3))) >>= (·.intervals dbg)) [.point 2] := by decide

-- src/test/tine_tree/intersect.rs:112
example : ∀ dbg, SameSetOk ((TineTree.fromRawInterval (α := Int) (.point 2)).intersect dbg
    (TineTree.fromRawInterval .full) >>= (·.intervals dbg)) [.point 2] := by decide

-- src/test/tine_tree/intersect.rs:119
example : ∀ dbg, SameSetOk ((TineTree.fromRawInterval (α := Int) (.point 2)).intersect dbg
    (TineTree.fromRawInterval .empty) >>= (·.intervals dbg)) [] := by decide

-- src/test/tine_tree/intersect.rs:120
example : ∀ dbg, SameSetOk ((TineTree.fromRawInterval (α := Int) (.point 2)).intersect dbg
    (TineTree.fromRawInterval (.point 10)) >>= (·.intervals dbg)) [] := by decide

-- src/test/tine_tree/intersect.rs:121
example : ∀ dbg, SameSetOk ((TineTree.fromRawInterval (α := Int) (.point 2)).intersect dbg
    (TineTree.fromRawInterval (.opn 10 13)) >>= (·.intervals dbg)) [] := by decide

-- src/test/tine_tree/intersect.rs:122
example : ∀ dbg, SameSetOk ((TineTree.fromRawInterval (α := Int) (.point 2)).intersect dbg
    (TineTree.fromRawInterval (.leftOpen 10 13)) >>= (·.intervals dbg)) [] := by decide

-- src/test/tine_tree/intersect.rs:123
example : ∀ dbg, SameSetOk ((TineTree.fromRawInterval (α := Int) (.point 2)).intersect dbg
    (TineTree.fromRawInterval (.rightOpen 10 13)) >>= (·.intervals dbg)) [] := by decide

-- src/test/tine_tree/intersect.rs:124
example : ∀ dbg, SameSetOk ((TineTree.fromRawInterval (α := Int) (.point 2)).intersect dbg
    (TineTree.fromRawInterval (.closed 10 13)) >>= (·.intervals dbg)) [] := by decide

-- src/test/tine_tree/intersect.rs:125
example : ∀ dbg, SameSetOk ((TineTree.fromRawInterval (α := Int) (.point 2)).intersect dbg
    (TineTree.fromRawInterval (.upTo 13)) >>= (·.intervals dbg)) [.point 2] := by decide

-- src/test/tine_tree/intersect.rs:126
example : ∀ dbg, SameSetOk ((TineTree.fromRawInterval (α := Int) (.point 2)).intersect dbg
    (TineTree.fromRawInterval (.upFrom 13)) >>= (·.intervals dbg)) [] := by decide

-- src/test/tine_tree/intersect.rs:127
example : ∀ dbg, SameSetOk ((TineTree.fromRawInterval (α := Int) (.point 2)).intersect dbg
    (TineTree.fromRawInterval (.to 13)) >>= (·.intervals dbg)) [.point 2] := by decide

-- src/test/tine_tree/intersect.rs:128
example : ∀ dbg, SameSetOk ((TineTree.fromRawInterval (α := Int) (.point 2)).intersect dbg
    (TineTree.fromRawInterval (.frm 13)) >>= (·.intervals dbg)) [] := by decide

-- src/test/tine_tree/intersect.rs:129
example : ∀ dbg, SameSetOk ((TineTree.fromRawInterval (α := Int) (.point 2)).intersect dbg
    (TineTree.fromRawInterval .full) >>= (·.intervals dbg)) [.point 2] := by decide

-- src/test/tine_tree/intersect.rs:136
example : ∀ dbg, SameSetOk ((TineTree.fromRawInterval (α := Int) (.opn 0 3)).intersect dbg
    (TineTree.fromRawInterval .empty) >>= (·.intervals dbg)) [] := by decide

-- src/test/tine_tree/intersect.rs:137
example : ∀ dbg, SameSetOk ((TineTree.fromRawInterval (α := Int) (.opn 0 3)).intersect dbg
    (TineTree.fromRawInterval (.point 2)) >>= (·.intervals dbg)) [.point 2] := by decide

-- src/test/tine_tree/intersect.rs:138
example : ∀ dbg, SameSetOk ((TineTree.fromRawInterval (α := Int) (.opn 0 3)).intersect dbg
    (TineTree.fromRawInterval (.opn 0 3)) >>= (·.intervals dbg)) [.opn 0 3] := by decide

-- src/test/tine_tree/intersect.rs:139
example : ∀ dbg, SameSetOk ((TineTree.fromRawInterval (α := Int) (.opn 0 3)).intersect dbg
    (TineTree.fromRawInterval (.leftOpen 0 3)) >>= (·.intervals dbg)) [.opn 0 3] := by decide

-- src/test/tine_tree/intersect.rs:140
example : ∀ dbg, SameSetOk ((TineTree.fromRawInterval (α := Int) (.opn 0 3)).intersect dbg
    (TineTree.fromRawInterval (.rightOpen 0 3)) >>= (·.intervals dbg)) [.opn 0 3] := by decide

-- src/test/tine_tree/intersect.rs:141
example : ∀ dbg, SameSetOk ((TineTree.fromRawInterval (α := Int) (.opn 0 3)).intersect dbg
    (TineTree.fromRawInterval (.closed 0 3)) >>= (·.intervals dbg)) [.opn 0 3] := by decide

-- src/test/tine_tree/intersect.rs:142
example : ∀ dbg, SameSetOk ((TineTree.fromRawInterval (α := Int) (.opn 0 3)).intersect dbg
    (TineTree.fromRawInterval (.upTo 2)) >>= (·.intervals dbg)) [.opn 0 2] := by decide

-- src/test/tine_tree/intersect.rs:143
example : ∀ dbg, SameSetOk ((TineTree.fromRawInterval (α := Int) (.opn 0 3)).intersect dbg
    (TineTree.fromRawInterval (.upFrom 2)) >>= (·.intervals dbg)) [.opn 2 3] := by decide

-- src/test/tine_tree/intersect.rs:144
example : ∀ dbg, SameSetOk ((TineTree.fromRawInterval (α := Int) (.opn 0 3)).intersect dbg
    (TineTree.fromRawInterval (.to 2)) >>= (·.intervals dbg)) [.leftOpen 0 2] := by decide

-- src/test/tine_tree/intersect.rs:145
example : ∀ dbg, SameSetOk ((TineTree.fromRawInterval (α := Int) (.opn 0 3)).intersect dbg
    (TineTree.fromRawInterval (.frm 2)) >>= (·.intervals dbg)) [.rightOpen 2 3] := by decide

-- src/test/tine_tree/intersect.rs:146
example : ∀ dbg, SameSetOk ((TineTree.fromRawInterval (α := Int) (.opn 0 3)).intersect dbg
    (TineTree.fromRawInterval .full) >>= (·.intervals dbg)) [.opn 0 3] := by decide

-- src/test/tine_tree/intersect.rs:153
example : ∀ dbg, SameSetOk ((TineTree.fromRawInterval (α := Int) (.opn 0 3)).intersect dbg
    (TineTree.fromRawInterval .empty) >>= (·.intervals dbg)) [] := by decide

-- src/test/tine_tree/intersect.rs:154
example : ∀ dbg, SameSetOk ((TineTree.fromRawInterval (α := Int) (.opn 0 3)).intersect dbg
    (TineTree.fromRawInterval (.point (-3))) >>= (·.intervals dbg)) [] := by decide

-- src/test/tine_tree/intersect.rs:155
example : ∀ dbg, SameSetOk ((TineTree.fromRawInterval (α := Int) (.opn 0 3)).intersect dbg
    (TineTree.fromRawInterval (.opn (-3) (-1))) >>= (·.intervals dbg)) [] := by decide

-- src/test/tine_tree/intersect.rs:156
example : ∀ dbg, SameSetOk ((TineTree.fromRawInterval (α := Int) (.opn 0 3)).intersect dbg
    (TineTree.fromRawInterval (.leftOpen (-3) (-1))) >>= (·.intervals dbg)) [] := by decide

-- src/test/tine_tree/intersect.rs:157
example : ∀ dbg, SameSetOk ((TineTree.fromRawInterval (α := Int) (.opn 0 3)).intersect dbg
    (TineTree.fromRawInterval (.rightOpen (-3) (-1))) >>= (·.intervals dbg)) [] := by decide

-- src/test/tine_tree/intersect.rs:158
example : ∀ dbg, SameSetOk ((TineTree.fromRawInterval (α := Int) (.opn 0 3)).intersect dbg
    (TineTree.fromRawInterval (.closed (-3) (-1))) >>= (·.intervals dbg)) [] := by decide

-- src/test/tine_tree/intersect.rs:159
example : ∀ dbg, SameSetOk ((TineTree.fromRawInterval (α := Int) (.opn 0 3)).intersect dbg
    (TineTree.fromRawInterval (.upTo (-3))) >>= (·.intervals dbg)) [] := by decide

-- src/test/tine_tree/intersect.rs:160
example : ∀ dbg, SameSetOk ((TineTree.fromRawInterval (α := Int) (.opn 0 3)).intersect dbg
    (TineTree.fromRawInterval (.upFrom (-3))) >>= (·.intervals dbg)) [.opn 0 3] := by decide

-- src/test/tine_tree/intersect.rs:161
example : ∀ dbg, SameSetOk ((TineTree.fromRawInterval (α := Int) (.opn 0 3)).intersect dbg
    (TineTree.fromRawInterval (.to (-3))) >>= (·.intervals dbg)) [] := by decide

-- src/test/tine_tree/intersect.rs:162
example : ∀ dbg, SameSetOk ((TineTree.fromRawInterval (α := Int) (.opn 0 3)).intersect dbg
    (TineTree.fromRawInterval (.frm (-3))) >>= (·.intervals dbg)) [.opn 0 3] := by decide

-- src/test/tine_tree/intersect.rs:163
example : ∀ dbg, SameSetOk ((TineTree.fromRawInterval (α := Int) (.opn 0 3)).intersect dbg
    (TineTree.fromRawInterval .full) >>= (·.intervals dbg)) [.opn 0 3] := by decide

-- src/test/tine_tree/intersect.rs:170
example : ∀ dbg, SameSetOk ((TineTree.fromRawInterval (α := Int) (.opn 0 3)).intersect dbg
    (TineTree.fromRawInterval .empty) >>= (·.intervals dbg)) [] := by decide

-- src/test/tine_tree/intersect.rs:171
example : ∀ dbg, SameSetOk ((TineTree.fromRawInterval (α := Int) (.opn 0 3)).intersect dbg
    (TineTree.fromRawInterval (.point 13)) >>= (·.intervals dbg)) [] := by decide

-- src/test/tine_tree/intersect.rs:172
example : ∀ dbg, SameSetOk ((TineTree.fromRawInterval (α := Int) (.opn 0 3)).intersect dbg
    (TineTree.fromRawInterval (.opn 10 13)) >>= (·.intervals dbg)) [] := by decide

-- src/test/tine_tree/intersect.rs:173
example : ∀ dbg, SameSetOk ((TineTree.fromRawInterval (α := Int) (.opn 0 3)).intersect dbg
    (TineTree.fromRawInterval (.leftOpen 10 13)) >>= (·.intervals dbg)) [] := by decide

-- src/test/tine_tree/intersect.rs:174
example : ∀ dbg, SameSetOk ((TineTree.fromRawInterval (α := Int) (.opn 0 3)).intersect dbg
    (TineTree.fromRawInterval (.rightOpen 10 13)) >>= (·.intervals dbg)) [] := by decide

-- src/test/tine_tree/intersect.rs:175
example : ∀ dbg, SameSetOk ((TineTree.fromRawInterval (α := Int) (.opn 0 3)).intersect dbg
    (TineTree.fromRawInterval (.closed 10 13)) >>= (·.intervals dbg)) [] := by decide

-- src/test/tine_tree/intersect.rs:176
example : ∀ dbg, SameSetOk ((TineTree.fromRawInterval (α := Int) (.opn 0 3)).intersect dbg
    (TineTree.fromRawInterval (.upTo 13)) >>= (·.intervals dbg)) [.opn 0 3] := by decide

-- src/test/tine_tree/intersect.rs:177
example : ∀ dbg, SameSetOk ((TineTree.fromRawInterval (α := Int) (.opn 0 3)).intersect dbg
    (TineTree.fromRawInterval (.upFrom 13)) >>= (·.intervals dbg)) [] := by decide

-- src/test/tine_tree/intersect.rs:178
example : ∀ dbg, SameSetOk ((TineTree.fromRawInterval (α := Int) (.opn 0 3)).intersect dbg
    (TineTree.fromRawInterval (.to 13)) >>= (·.intervals dbg)) [.opn 0 3] := by decide

-- src/test/tine_tree/intersect.rs:179
example : ∀ dbg, SameSetOk ((TineTree.fromRawInterval (α := Int) (.opn 0 3)).intersect dbg
    (TineTree.fromRawInterval (.frm 13)) >>= (·.intervals dbg)) [] := by decide

-- src/test/tine_tree/intersect.rs:180
example : ∀ dbg, SameSetOk ((TineTree.fromRawInterval (α := Int) (.opn 0 3)).intersect dbg
    (TineTree.fromRawInterval .full) >>= (·.intervals dbg)) [.opn 0 3] := by decide

-- src/test/tine_tree/intersect.rs:187
example : ∀ dbg, SameSetOk ((TineTree.fromRawInterval (α := Int) (.leftOpen 0 3)).intersect dbg
    (TineTree.fromRawInterval .empty) >>= (·.intervals dbg)) [] := by decide

-- src/test/tine_tree/intersect.rs:188
example : ∀ dbg, SameSetOk ((TineTree.fromRawInterval (α := Int) (.leftOpen 0 3)).intersect dbg
    (TineTree.fromRawInterval (.point 2)) >>= (·.intervals dbg)) [.point 2] := by decide

-- src/test/tine_tree/intersect.rs:189
example : ∀ dbg, SameSetOk ((TineTree.fromRawInterval (α := Int) (.leftOpen 0 3)).intersect dbg
    (TineTree.fromRawInterval (.opn 0 3)) >>= (·.intervals dbg)) [.opn 0 3] := by decide

-- src/test/tine_tree/intersect.rs:190
example : ∀ dbg, SameSetOk ((TineTree.fromRawInterval (α := Int) (.leftOpen 0 3)).intersect dbg
    (TineTree.fromRawInterval (.leftOpen 0 3)) >>= (·.intervals dbg)) [.leftOpen 0 3] := by decide

-- src/test/tine_tree/intersect.rs:191
example : ∀ dbg, SameSetOk ((TineTree.fromRawInterval (α := Int) (.leftOpen 0 3)).intersect dbg
    (TineTree.fromRawInterval (.rightOpen 0 3)) >>= (·.intervals dbg)) [.opn 0 3] := by decide

-- src/test/tine_tree/intersect.rs:192
example : ∀ dbg, SameSetOk ((TineTree.fromRawInterval (α := Int) (.leftOpen 0 3)).intersect dbg
    (TineTree.fromRawInterval (.closed 0 3)) >>= (·.intervals dbg)) [.leftOpen 0 3] := by decide

-- src/test/tine_tree/intersect.rs:193
example : ∀ dbg, SameSetOk ((TineTree.fromRawInterval (α := Int) (.leftOpen 0 3)).intersect dbg
    (TineTree.fromRawInterval (.upTo 2)) >>= (·.intervals dbg)) [.opn 0 2] := by decide

-- src/test/tine_tree/intersect.rs:194
example : ∀ dbg, SameSetOk ((TineTree.fromRawInterval (α := Int) (.leftOpen 0 3)).intersect dbg
    (TineTree.fromRawInterval (.upFrom 2)) >>= (·.intervals dbg)) [.leftOpen 2 3] := by decide

-- src/test/tine_tree/intersect.rs:195
example : ∀ dbg, SameSetOk ((TineTree.fromRawInterval (α := Int) (.leftOpen 0 3)).intersect dbg
    (TineTree.fromRawInterval (.to 2)) >>= (·.intervals dbg)) [.leftOpen 0 2] := by decide

-- src/test/tine_tree/intersect.rs:196
example : ∀ dbg, SameSetOk ((TineTree.fromRawInterval (α := Int) (.leftOpen 0 3)).intersect dbg
    (TineTree.fromRawInterval (.frm 2)) >>= (·.intervals dbg)) [.closed 2 3] := by decide

-- src/test/tine_tree/intersect.rs:197
example : ∀ dbg, SameSetOk ((TineTree.fromRawInterval (α := Int) (.leftOpen 0 3)).intersect dbg
    (TineTree.fromRawInterval .full) >>= (·.intervals dbg)) [.leftOpen 0 3] := by decide

-- src/test/tine_tree/intersect.rs:204
example : ∀ dbg, SameSetOk ((TineTree.fromRawInterval (α := Int) (.leftOpen 0 3)).intersect dbg
    (TineTree.fromRawInterval .empty) >>= (·.intervals dbg)) [] := by decide

-- src/test/tine_tree/intersect.rs:205
example : ∀ dbg, SameSetOk ((TineTree.fromRawInterval (α := Int) (.leftOpen 0 3)).intersect dbg
    (TineTree.fromRawInterval (.point (-3))) >>= (·.intervals dbg)) [] := by decide

-- src/test/tine_tree/intersect.rs:206
example : ∀ dbg, SameSetOk ((TineTree.fromRawInterval (α := Int) (.leftOpen 0 3)).intersect dbg
    (TineTree.fromRawInterval (.opn (-3) (-1))) >>= (·.intervals dbg)) [] := by decide

-- src/test/tine_tree/intersect.rs:207
example : ∀ dbg, SameSetOk ((TineTree.fromRawInterval (α := Int) (.leftOpen 0 3)).intersect dbg
    (TineTree.fromRawInterval (.leftOpen (-3) (-1))) >>= (·.intervals dbg)) [] := by decide

-- src/test/tine_tree/intersect.rs:208
example : ∀ dbg, SameSetOk ((TineTree.fromRawInterval (α := Int) (.leftOpen 0 3)).intersect dbg
    (TineTree.fromRawInterval (.rightOpen (-3) (-1))) >>= (·.intervals dbg)) [] := by decide

-- src/test/tine_tree/intersect.rs:209
example : ∀ dbg, SameSetOk ((TineTree.fromRawInterval (α := Int) (.leftOpen 0 3)).intersect dbg
    (TineTree.fromRawInterval (.closed (-3) (-1))) >>= (·.intervals dbg)) [] := by decide

-- src/test/tine_tree/intersect.rs:210
example : ∀ dbg, SameSetOk ((TineTree.fromRawInterval (α := Int) (.leftOpen 0 3)).intersect dbg
    (TineTree.fromRawInterval (.upTo (-3))) >>= (·.intervals dbg)) [] := by decide

-- src/test/tine_tree/intersect.rs:211
example : ∀ dbg, SameSetOk ((TineTree.fromRawInterval (α := Int) (.leftOpen 0 3)).intersect dbg
    (TineTree.fromRawInterval (.upFrom (-3))) >>= (·.intervals dbg)) [.leftOpen 0 3] := by decide

-- src/test/tine_tree/intersect.rs:212
example : ∀ dbg, SameSetOk ((TineTree.fromRawInterval (α := Int) (.leftOpen 0 3)).intersect dbg
    (TineTree.fromRawInterval (.to (-3))) >>= (·.intervals dbg)) [] := by decide

-- src/test/tine_tree/intersect.rs:213
example : ∀ dbg, SameSetOk ((TineTree.fromRawInterval (α := Int) (.leftOpen 0 3)).intersect dbg
    (TineTree.fromRawInterval (.frm (-3))) >>= (·.intervals dbg)) [.leftOpen 0 3] := by decide

-- src/test/tine_tree/intersect.rs:214
example : ∀ dbg, SameSetOk ((TineTree.fromRawInterval (α := Int) (.leftOpen 0 3)).intersect dbg
    (TineTree.fromRawInterval .full) >>= (·.intervals dbg)) [.leftOpen 0 3] := by decide

-- src/test/tine_tree/intersect.rs:221
example : ∀ dbg, SameSetOk ((TineTree.fromRawInterval (α := Int) (.leftOpen 0 3)).intersect dbg
    (TineTree.fromRawInterval .empty) >>= (·.intervals dbg)) [] := by decide

-- src/test/tine_tree/intersect.rs:222
example : ∀ dbg, SameSetOk ((TineTree.fromRawInterval (α := Int) (.leftOpen 0 3)).intersect dbg
    (TineTree.fromRawInterval (.point 13)) >>= (·.intervals dbg)) [] := by decide

-- src/test/tine_tree/intersect.rs:223
example : ∀ dbg, SameSetOk ((TineTree.fromRawInterval (α := Int) (.leftOpen 0 3)).intersect dbg
    (TineTree.fromRawInterval (.opn 10 13)) >>= (·.intervals dbg)) [] := by decide

-- src/test/tine_tree/intersect.rs:224
example : ∀ dbg, SameSetOk ((TineTree.fromRawInterval (α := Int) (.leftOpen 0 3)).intersect dbg
    (TineTree.fromRawInterval (.leftOpen 10 13)) >>= (·.intervals dbg)) [] := by decide

-- src/test/tine_tree/intersect.rs:225
example : ∀ dbg, SameSetOk ((TineTree.fromRawInterval (α := Int) (.leftOpen 0 3)).intersect dbg
    (TineTree.fromRawInterval (.rightOpen 10 13)) >>= (·.intervals dbg)) [] := by decide

-- src/test/tine_tree/intersect.rs:226
example : ∀ dbg, SameSetOk ((TineTree.fromRawInterval (α := Int) (.leftOpen 0 3)).intersect dbg
    (TineTree.fromRawInterval (.closed 10 13)) >>= (·.intervals dbg)) [] := by decide

-- src/test/tine_tree/intersect.rs:227
example : ∀ dbg, SameSetOk ((TineTree.fromRawInterval (α := Int) (.leftOpen 0 3)).intersect dbg
    (TineTree.fromRawInterval (.upTo 13)) >>= (·.intervals dbg)) [.leftOpen 0 3] := by decide

-- src/test/tine_tree/intersect.rs:228
example : ∀ dbg, SameSetOk ((TineTree.fromRawInterval (α := Int) (.leftOpen 0 3)).intersect dbg
    (TineTree.fromRawInterval (.upFrom 13)) >>= (·.intervals dbg)) [] := by decide

-- src/test/tine_tree/intersect.rs:229
example : ∀ dbg, SameSetOk ((TineTree.fromRawInterval (α := Int) (.leftOpen 0 3)).intersect dbg
    (TineTree.fromRawInterval (.to 13)) >>= (·.intervals dbg)) [.leftOpen 0 3] := by decide

-- src/test/tine_tree/intersect.rs:230
example : ∀ dbg, SameSetOk ((TineTree.fromRawInterval (α := Int) (.leftOpen 0 3)).intersect dbg
    (TineTree.fromRawInterval (.frm 13)) >>= (·.intervals dbg)) [] := by decide

-- src/test/tine_tree/intersect.rs:231
example : ∀ dbg, SameSetOk ((TineTree.fromRawInterval (α := Int) (.leftOpen 0 3)).intersect dbg
    (TineTree.fromRawInterval .full) >>= (·.intervals dbg)) [.leftOpen 0 3] := by decide

-- src/test/tine_tree/intersect.rs:238
example : ∀ dbg, SameSetOk ((TineTree.fromRawInterval (α := Int) (.rightOpen 0 3)).intersect dbg
    (TineTree.fromRawInterval .empty) >>= (·.intervals dbg)) [] := by decide

-- src/test/tine_tree/intersect.rs:239
example : ∀ dbg, SameSetOk ((TineTree.fromRawInterval (α := Int) (.rightOpen 0 3)).intersect dbg
    (TineTree.fromRawInterval (.point 2)) >>= (·.intervals dbg)) [.point 2] := by decide

-- src/test/tine_tree/intersect.rs:240
example : ∀ dbg, SameSetOk ((TineTree.fromRawInterval (α := Int) (.rightOpen 0 3)).intersect dbg
    (TineTree.fromRawInterval (.opn 0 3)) >>= (·.intervals dbg)) [.opn 0 3] := by decide

-- src/test/tine_tree/intersect.rs:241
example : ∀ dbg, SameSetOk ((TineTree.fromRawInterval (α := Int) (.rightOpen 0 3)).intersect dbg
    (TineTree.fromRawInterval (.leftOpen 0 3)) >>= (·.intervals dbg)) [.opn 0 3] := by decide

-- src/test/tine_tree/intersect.rs:242
example : ∀ dbg, SameSetOk ((TineTree.fromRawInterval (α := Int) (.rightOpen 0 3)).intersect dbg
    (TineTree.fromRawInterval (.rightOpen 0 3)) >>= (·.intervals dbg)) [.rightOpen 0 3] := by decide

-- src/test/tine_tree/intersect.rs:243
example : ∀ dbg, SameSetOk ((TineTree.fromRawInterval (α := Int) (.rightOpen 0 3)).intersect dbg
    (TineTree.fromRawInterval (.closed 0 3)) >>= (·.intervals dbg)) [.rightOpen 0 3] := by decide

-- src/test/tine_tree/intersect.rs:244
example : ∀ dbg, SameSetOk ((TineTree.fromRawInterval (α := Int) (.rightOpen 0 3)).intersect dbg
    (TineTree.fromRawInterval (.upTo 2)) >>= (·.intervals dbg)) [.rightOpen 0 2] := by decide

-- src/test/tine_tree/intersect.rs:245
example : ∀ dbg, SameSetOk ((TineTree.fromRawInterval (α := Int) (.rightOpen 0 3)).intersect dbg
    (TineTree.fromRawInterval (.upFrom 2)) >>= (·.intervals dbg)) [.opn 2 3] := by decide

-- src/test/tine_tree/intersect.rs:246
example : ∀ dbg, SameSetOk ((TineTree.fromRawInterval (α := Int) (.rightOpen 0 3)).intersect dbg
    (TineTree.fromRawInterval (.to 2)) >>= (·.intervals dbg)) [.closed 0 2] := by decide

-- src/test/tine_tree/intersect.rs:247
example : ∀ dbg, SameSetOk ((TineTree.fromRawInterval (α := Int) (.rightOpen 0 3)).intersect dbg
    (TineTree.fromRawInterval (.frm 2)) >>= (·.intervals dbg)) [.rightOpen 2 3] := by decide

-- src/test/tine_tree/intersect.rs:248
example : ∀ dbg, SameSetOk ((TineTree.fromRawInterval (α := Int) (.rightOpen 0 3)).intersect dbg
    (TineTree.fromRawInterval .full) >>= (·.intervals dbg)) [.rightOpen 0 3] := by decide

-- src/test/tine_tree/intersect.rs:255
example : ∀ dbg, SameSetOk ((TineTree.fromRawInterval (α := Int) (.rightOpen 0 3)).intersect dbg
    (TineTree.fromRawInterval .empty) >>= (·.intervals dbg)) [] := by decide

-- src/test/tine_tree/intersect.rs:256
example : ∀ dbg, SameSetOk ((TineTree.fromRawInterval (α := Int) (.rightOpen 0 3)).intersect dbg
    (TineTree.fromRawInterval (.point (-3))) >>= (·.intervals dbg)) [] := by decide

-- src/test/tine_tree/intersect.rs:257
example : ∀ dbg, SameSetOk ((TineTree.fromRawInterval (α := Int) (.rightOpen 0 3)).intersect dbg
    (TineTree.fromRawInterval (.opn (-3) (-1))) >>= (·.intervals dbg)) [] := by decide

-- src/test/tine_tree/intersect.rs:258
example : ∀ dbg, SameSetOk ((TineTree.fromRawInterval (α := Int) (.rightOpen 0 3)).intersect dbg
    (TineTree.fromRawInterval (.leftOpen (-3) (-1))) >>= (·.intervals dbg)) [] := by decide

-- src/test/tine_tree/intersect.rs:259
example : ∀ dbg, SameSetOk ((TineTree.fromRawInterval (α := Int) (.rightOpen 0 3)).intersect dbg
    (TineTree.fromRawInterval (.rightOpen (-3) (-1))) >>= (·.intervals dbg)) [] := by decide

-- src/test/tine_tree/intersect.rs:260
example : ∀ dbg, SameSetOk ((TineTree.fromRawInterval (α := Int) (.rightOpen 0 3)).intersect dbg
    (TineTree.fromRawInterval (.closed (-3) (-1))) >>= (·.intervals dbg)) [] := by decide

-- src/test/tine_tree/intersect.rs:261
example : ∀ dbg, SameSetOk ((TineTree.fromRawInterval (α := Int) (.rightOpen 0 3)).intersect dbg
    (TineTree.fromRawInterval (.upTo (-3))) >>= (·.intervals dbg)) [] := by decide

-- src/test/tine_tree/intersect.rs:262
example : ∀ dbg, SameSetOk ((TineTree.fromRawInterval (α := Int) (.rightOpen 0 3)).intersect dbg
    (TineTree.fromRawInterval (.upFrom (-3))) >>= (·.intervals dbg)) [.rightOpen 0 3] := by decide

-- src/test/tine_tree/intersect.rs:263
example : ∀ dbg, SameSetOk ((TineTree.fromRawInterval (α := Int) (.rightOpen 0 3)).intersect dbg
    (TineTree.fromRawInterval (.to (-3))) >>= (·.intervals dbg)) [] := by decide

-- src/test/tine_tree/intersect.rs:264
example : ∀ dbg, SameSetOk ((TineTree.fromRawInterval (α := Int) (.rightOpen 0 3)).intersect dbg
    (TineTree.fromRawInterval (.frm (-3))) >>= (·.intervals dbg)) [.rightOpen 0 3] := by decide

-- src/test/tine_tree/intersect.rs:265
example : ∀ dbg, SameSetOk ((TineTree.fromRawInterval (α := Int) (.rightOpen 0 3)).intersect dbg
    (TineTree.fromRawInterval .full) >>= (·.intervals dbg)) [.rightOpen 0 3] := by decide

-- src/test/tine_tree/intersect.rs:272
example : ∀ dbg, SameSetOk ((TineTree.fromRawInterval (α := Int) (.rightOpen 0 3)).intersect dbg
    (TineTree.fromRawInterval .empty) >>= (·.intervals dbg)) [] := by decide

-- src/test/tine_tree/intersect.rs:273
example : ∀ dbg, SameSetOk ((TineTree.fromRawInterval (α := Int) (.rightOpen 0 3)).intersect dbg
    (TineTree.fromRawInterval (.point 13)) >>= (·.intervals dbg)) [] := by decide

-- src/test/tine_tree/intersect.rs:274
example : ∀ dbg, SameSetOk ((TineTree.fromRawInterval (α := Int) (.rightOpen 0 3)).intersect dbg
    (TineTree.fromRawInterval (.opn 10 13)) >>= (·.intervals dbg)) [] := by decide

-- src/test/tine_tree/intersect.rs:275
example : ∀ dbg, SameSetOk ((TineTree.fromRawInterval (α := Int) (.rightOpen 0 3)).intersect dbg
    (TineTree.fromRawInterval (.leftOpen 10 13)) >>= (·.intervals dbg)) [] := by decide

-- src/test/tine_tree/intersect.rs:276
example : ∀ dbg, SameSetOk ((TineTree.fromRawInterval (α := Int) (.rightOpen 0 3)).intersect dbg
    (TineTree.fromRawInterval (.rightOpen 10 13)) >>= (·.intervals dbg)) [] := by decide

-- src/test/tine_tree/intersect.rs:277
example : ∀ dbg, SameSetOk ((TineTree.fromRawInterval (α := Int) (.rightOpen 0 3)).intersect dbg
    (TineTree.fromRawInterval (.closed 10 13)) >>= (·.intervals dbg)) [] := by decide

-- src/test/tine_tree/intersect.rs:278
example : ∀ dbg, SameSetOk ((TineTree.fromRawInterval (α := Int) (.rightOpen 0 3)).intersect dbg
    (TineTree.fromRawInterval (.upTo 13)) >>= (·.intervals dbg)) [.rightOpen 0 3] := by decide

-- src/test/tine_tree/intersect.rs:279
example : ∀ dbg, SameSetOk ((TineTree.fromRawInterval (α := Int) (.rightOpen 0 3)).intersect dbg
    (TineTree.fromRawInterval (.upFrom 13)) >>= (·.intervals dbg)) [] := by decide

-- src/test/tine_tree/intersect.rs:280
example : ∀ dbg, SameSetOk ((TineTree.fromRawInterval (α := Int) (.rightOpen 0 3)).intersect dbg
    (TineTree.fromRawInterval (.to 13)) >>= (·.intervals dbg)) [.rightOpen 0 3] := by decide

-- src/test/tine_tree/intersect.rs:281
example : ∀ dbg, SameSetOk ((TineTree.fromRawInterval (α := Int) (.rightOpen 0 3)).intersect dbg
    (TineTree.fromRawInterval (.frm 13)) >>= (·.intervals dbg)) [] := by decide

-- src/test/tine_tree/intersect.rs:282
example : ∀ dbg, SameSetOk ((TineTree.fromRawInterval (α := Int) (.rightOpen 0 3)).intersect dbg
    (TineTree.fromRawInterval .full) >>= (·.intervals dbg)) [.rightOpen 0 3] := by decide

-- src/test/tine_tree/intersect.rs:289
example : ∀ dbg, SameSetOk ((TineTree.fromRawInterval (α := Int) (.closed 0 3)).intersect dbg
    (TineTree.fromRawInterval .empty) >>= (·.intervals dbg)) [] := by decide

-- src/test/tine_tree/intersect.rs:290
example : ∀ dbg, SameSetOk ((TineTree.fromRawInterval (α := Int) (.closed 0 3)).intersect dbg
    (TineTree.fromRawInterval (.point 2)) >>= (·.intervals dbg)) [.point 2] := by decide

-- src/test/tine_tree/intersect.rs:291
example : ∀ dbg, SameSetOk ((TineTree.fromRawInterval (α := Int) (.closed 0 3)).intersect dbg
    (TineTree.fromRawInterval (.opn 0 3)) >>= (·.intervals dbg)) [.opn 0 3] := by decide

-- src/test/tine_tree/intersect.rs:292
example : ∀ dbg, SameSetOk ((TineTree.fromRawInterval (α := Int) (.closed 0 3)).intersect dbg
    (TineTree.fromRawInterval (.leftOpen 0 3)) >>= (·.intervals dbg)) [.leftOpen 0 3] := by decide

-- src/test/tine_tree/intersect.rs:293
example : ∀ dbg, SameSetOk ((TineTree.fromRawInterval (α := Int) (.closed 0 3)).intersect dbg
    (TineTree.fromRawInterval (.rightOpen 0 3)) >>= (·.intervals dbg)) [.rightOpen 0 3] := by decide

-- src/test/tine_tree/intersect.rs:294
example : ∀ dbg, SameSetOk ((TineTree.fromRawInterval (α := Int) (.closed 0 3)).intersect dbg
    (TineTree.fromRawInterval (.closed 0 3)) >>= (·.intervals dbg)) [.closed 0 3] := by decide

-- src/test/tine_tree/intersect.rs:295
example : ∀ dbg, SameSetOk ((TineTree.fromRawInterval (α := Int) (.closed 0 3)).intersect dbg
    (TineTree.fromRawInterval (.upTo 2)) >>= (·.intervals dbg)) [.rightOpen 0 2] := by decide

-- src/test/tine_tree/intersect.rs:296
example : ∀ dbg, SameSetOk ((TineTree.fromRawInterval (α := Int) (.closed 0 3)).intersect dbg
    (TineTree.fromRawInterval (.upFrom 2)) >>= (·.intervals dbg)) [.leftOpen 2 3] := by decide

-- src/test/tine_tree/intersect.rs:297
example : ∀ dbg, SameSetOk ((TineTree.fromRawInterval (α := Int) (.closed 0 3)).intersect dbg
    (TineTree.fromRawInterval (.to 2)) >>= (·.intervals dbg)) [.closed 0 2] := by decide

-- src/test/tine_tree/intersect.rs:298
example : ∀ dbg, SameSetOk ((TineTree.fromRawInterval (α := Int) (.closed 0 3)).intersect dbg
    (TineTree.fromRawInterval (.frm 2)) >>= (·.intervals dbg)) [.closed 2 3] := by decide

-- src/test/tine_tree/intersect.rs:299
example : ∀ dbg, SameSetOk ((TineTree.fromRawInterval (α := Int) (.closed 0 3)).intersect dbg
    (TineTree.fromRawInterval .full) >>= (·.intervals dbg)) [.closed 0 3] := by decide

-- src/test/tine_tree/intersect.rs:306
example : ∀ dbg, SameSetOk ((TineTree.fromRawInterval (α := Int) (.closed 0 3)).intersect dbg
    (TineTree.fromRawInterval .empty) >>= (·.intervals dbg)) [] := by decide

-- src/test/tine_tree/intersect.rs:307
example : ∀ dbg, SameSetOk ((TineTree.fromRawInterval (α := Int) (.closed 0 3)).intersect dbg
    (TineTree.fromRawInterval (.point (-3))) >>= (·.intervals dbg)) [] := by decide

-- src/test/tine_tree/intersect.rs:308
example : ∀ dbg, SameSetOk ((TineTree.fromRawInterval (α := Int) (.closed 0 3)).intersect dbg
    (TineTree.fromRawInterval (.opn (-3) (-1))) >>= (·.intervals dbg)) [] := by decide

-- src/test/tine_tree/intersect.rs:309
example : ∀ dbg, SameSetOk ((TineTree.fromRawInterval (α := Int) (.closed 0 3)).intersect dbg
    (TineTree.fromRawInterval (.leftOpen (-3) (-1))) >>= (·.intervals dbg)) [] := by decide

-- src/test/tine_tree/intersect.rs:310
example : ∀ dbg, SameSetOk ((TineTree.fromRawInterval (α := Int) (.closed 0 3)).intersect dbg
    (TineTree.fromRawInterval (.rightOpen (-3) (-1))) >>= (·.intervals dbg)) [] := by decide

-- src/test/tine_tree/intersect.rs:311
example : ∀ dbg, SameSetOk ((TineTree.fromRawInterval (α := Int) (.closed 0 3)).intersect dbg
    (TineTree.fromRawInterval (.closed (-3) (-1))) >>= (·.intervals dbg)) [] := by decide

-- src/test/tine_tree/intersect.rs:312
example : ∀ dbg, SameSetOk ((TineTree.fromRawInterval (α := Int) (.closed 0 3)).intersect dbg
    (TineTree.fromRawInterval (.upTo (-3))) >>= (·.intervals dbg)) [] := by decide

-- src/test/tine_tree/intersect.rs:313
example : ∀ dbg, SameSetOk ((TineTree.fromRawInterval (α := Int) (.closed 0 3)).intersect dbg
    (TineTree.fromRawInterval (.upFrom (-3))) >>= (·.intervals dbg)) [.closed 0 3] := by decide

-- src/test/tine_tree/intersect.rs:314
example : ∀ dbg, SameSetOk ((TineTree.fromRawInterval (α := Int) (.closed 0 3)).intersect dbg
    (TineTree.fromRawInterval (.to (-3))) >>= (·.intervals dbg)) [] := by decide

-- src/test/tine_tree/intersect.rs:315
example : ∀ dbg, SameSetOk ((TineTree.fromRawInterval (α := Int) (.closed 0 3)).intersect dbg
    (TineTree.fromRawInterval (.frm (-3))) >>= (·.intervals dbg)) [.closed 0 3] := by decide

-- src/test/tine_tree/intersect.rs:316
example : ∀ dbg, SameSetOk ((TineTree.fromRawInterval (α := Int) (.closed 0 3)).intersect dbg
    (TineTree.fromRawInterval .full) >>= (·.intervals dbg)) [.closed 0 3] := by decide

-- src/test/tine_tree/intersect.rs:323
example : ∀ dbg, SameSetOk ((TineTree.fromRawInterval (α := Int) (.closed 0 3)).intersect dbg
    (TineTree.fromRawInterval .empty) >>= (·.intervals dbg)) [] := by decide

-- src/test/tine_tree/intersect.rs:324
example : ∀ dbg, SameSetOk ((TineTree.fromRawInterval (α := Int) (.closed 0 3)).intersect dbg
    (TineTree.fromRawInterval (.point 13)) >>= (·.intervals dbg)) [] := by decide

-- src/test/tine_tree/intersect.rs:325
example : ∀ dbg, SameSetOk ((TineTree.fromRawInterval (α := Int) (.closed 0 3)).intersect dbg
    (TineTree.fromRawInterval (.opn 10 13)) >>= (·.intervals dbg)) [] := by decide

-- src/test/tine_tree/intersect.rs:326
example : ∀ dbg, SameSetOk ((TineTree.fromRawInterval (α := Int) (.closed 0 3)).intersect dbg
    (TineTree.fromRawInterval (.leftOpen 10 13)) >>= (·.intervals dbg)) [] := by decide

-- src/test/tine_tree/intersect.rs:327
example : ∀ dbg, SameSetOk ((TineTree.fromRawInterval (α := Int) (.closed 0 3)).intersect dbg
    (TineTree.fromRawInterval (.rightOpen 10 13)) >>= (·.intervals dbg)) [] := by decide

-- src/test/tine_tree/intersect.rs:328
example : ∀ dbg, SameSetOk ((TineTree.fromRawInterval (α := Int) (.closed 0 3)).intersect dbg
    (TineTree.fromRawInterval (.closed 10 13)) >>= (·.intervals dbg)) [] := by decide

-- src/test/tine_tree/intersect.rs:329
example : ∀ dbg, SameSetOk ((TineTree.fromRawInterval (α := Int) (.closed 0 3)).intersect dbg
    (TineTree.fromRawInterval (.upTo 13)) >>= (·.intervals dbg)) [.closed 0 3] := by decide

-- src/test/tine_tree/intersect.rs:330
example : ∀ dbg, SameSetOk ((TineTree.fromRawInterval (α := Int) (.closed 0 3)).intersect dbg
    (TineTree.fromRawInterval (.upFrom 13)) >>= (·.intervals dbg)) [] := by decide

-- src/test/tine_tree/intersect.rs:331
example : ∀ dbg, SameSetOk ((TineTree.fromRawInterval (α := Int) (.closed 0 3)).intersect dbg
    (TineTree.fromRawInterval (.to 13)) >>= (·.intervals dbg)) [.closed 0 3] := by decide

-- src/test/tine_tree/intersect.rs:332
example : ∀ dbg, SameSetOk ((TineTree.fromRawInterval (α := Int) (.closed 0 3)).intersect dbg
    (TineTree.fromRawInterval (.frm 13)) >>= (·.intervals dbg)) [] := by decide

-- src/test/tine_tree/intersect.rs:333
example : ∀ dbg, SameSetOk ((TineTree.fromRawInterval (α := Int) (.closed 0 3)).intersect dbg
    (TineTree.fromRawInterval .full) >>= (·.intervals dbg)) [.closed 0 3] := by decide

-- src/test/tine_tree/intersect.rs:340
example : ∀ dbg, SameSetOk ((TineTree.fromRawInterval (α := Int) (.upTo 3)).intersect dbg
    (TineTree.fromRawInterval .empty) >>= (·.intervals dbg)) [] := by decide

-- src/test/tine_tree/intersect.rs:341
example : ∀ dbg, SameSetOk ((TineTree.fromRawInterval (α := Int) (.upTo 3)).intersect dbg
    (TineTree.fromRawInterval (.point 2)) >>= (·.intervals dbg)) [.point 2] := by decide

-- src/test/tine_tree/intersect.rs:342
example : ∀ dbg, SameSetOk ((TineTree.fromRawInterval (α := Int) (.upTo 3)).intersect dbg
    (TineTree.fromRawInterval (.opn 0 3)) >>= (·.intervals dbg)) [.opn 0 3] := by decide

-- src/test/tine_tree/intersect.rs:343
example : ∀ dbg, SameSetOk ((TineTree.fromRawInterval (α := Int) (.upTo 3)).intersect dbg
    (TineTree.fromRawInterval (.leftOpen 0 3)) >>= (·.intervals dbg)) [.opn 0 3] := by decide

-- src/test/tine_tree/intersect.rs:344
example : ∀ dbg, SameSetOk ((TineTree.fromRawInterval (α := Int) (.upTo 3)).intersect dbg
    (TineTree.fromRawInterval (.rightOpen 0 3)) >>= (·.intervals dbg)) [.rightOpen 0 3] := by decide

-- src/test/tine_tree/intersect.rs:345
example : ∀ dbg, SameSetOk ((TineTree.fromRawInterval (α := Int) (.upTo 3)).intersect dbg
    (TineTree.fromRawInterval (.closed 0 3)) >>= (·.intervals dbg)) [.rightOpen 0 3] := by decide

-- src/test/tine_tree/intersect.rs:346
example : ∀ dbg, SameSetOk ((TineTree.fromRawInterval (α := Int) (.upTo 3)).intersect dbg
    (TineTree.fromRawInterval (.upTo 2)) >>= (·.intervals dbg)) [.upTo 2] := by decide

-- src/test/tine_tree/intersect.rs:347
example : ∀ dbg, SameSetOk ((TineTree.fromRawInterval (α := Int) (.upTo 3)).intersect dbg
    (TineTree.fromRawInterval (.upFrom 2)) >>= (·.intervals dbg)) [.opn 2 3] := by decide

-- src/test/tine_tree/intersect.rs:348
example : ∀ dbg, SameSetOk ((TineTree.fromRawInterval (α := Int) (.upTo 3)).intersect dbg
    (TineTree.fromRawInterval (.to 2)) >>= (·.intervals dbg)) [.to 2] := by decide

-- src/test/tine_tree/intersect.rs:349
example : ∀ dbg, SameSetOk ((TineTree.fromRawInterval (α := Int) (.upTo 3)).intersect dbg
    (TineTree.fromRawInterval (.frm 2)) >>= (·.intervals dbg)) [.rightOpen 2 3] := by decide

-- src/test/tine_tree/intersect.rs:350
example : ∀ dbg, SameSetOk ((TineTree.fromRawInterval (α := Int) (.upTo 3)).intersect dbg
    (TineTree.fromRawInterval .full) >>= (·.intervals dbg)) [.upTo 3] := by decide

-- src/test/tine_tree/intersect.rs:357
example : ∀ dbg, SameSetOk ((TineTree.fromRawInterval (α := Int) (.upTo 3)).intersect dbg
    (TineTree.fromRawInterval .empty) >>= (·.intervals dbg)) [] := by decide

-- src/test/tine_tree/intersect.rs:358
example : ∀ dbg, SameSetOk ((TineTree.fromRawInterval (α := Int) (.upTo 3)).intersect dbg
    (TineTree.fromRawInterval (.point (-3))) >>= (·.intervals dbg)) [.point (-3)] := by decide

-- src/test/tine_tree/intersect.rs:359
example : ∀ dbg, SameSetOk ((TineTree.fromRawInterval (α := Int) (.upTo 3)).intersect dbg
    (TineTree.fromRawInterval (.opn (-3) (-1))) >>= (·.intervals dbg)) [.opn (-3) (-1)] := by decide

-- src/test/tine_tree/intersect.rs:360
example : ∀ dbg, SameSetOk ((TineTree.fromRawInterval (α := Int) (.upTo 3)).intersect dbg
    (TineTree.fromRawInterval (.leftOpen (-3) (-1))) >>= (·.intervals dbg)) [.leftOpen (-3) (-1)] := by decide

-- src/test/tine_tree/intersect.rs:361
example : ∀ dbg, SameSetOk ((TineTree.fromRawInterval (α := Int) (.upTo 3)).intersect dbg
    (TineTree.fromRawInterval (.rightOpen (-3) (-1))) >>= (·.intervals dbg)) [.rightOpen (-3) (-1)] := by decide

-- src/test/tine_tree/intersect.rs:362
example : ∀ dbg, SameSetOk ((TineTree.fromRawInterval (α := Int) (.upTo 3)).intersect dbg
    (TineTree.fromRawInterval (.closed (-3) (-1))) >>= (·.intervals dbg)) [.closed (-3) (-1)] := by decide

-- src/test/tine_tree/intersect.rs:363
example : ∀ dbg, SameSetOk ((TineTree.fromRawInterval (α := Int) (.upTo 3)).intersect dbg
    (TineTree.fromRawInterval (.upTo (-3))) >>= (·.intervals dbg)) [.upTo (-3)] := by decide

-- src/test/tine_tree/intersect.rs:364
example : ∀ dbg, SameSetOk ((TineTree.fromRawInterval (α := Int) (.upTo 3)).intersect dbg
    (TineTree.fromRawInterval (.upFrom (-3))) >>= (·.intervals dbg)) [.opn (-3) 3] := by decide

-- src/test/tine_tree/intersect.rs:365
example : ∀ dbg, SameSetOk ((TineTree.fromRawInterval (α := Int) (.upTo 3)).intersect dbg
    (TineTree.fromRawInterval (.to (-3))) >>= (·.intervals dbg)) [.to (-3)] := by decide

-- src/test/tine_tree/intersect.rs:366
example : ∀ dbg, SameSetOk ((TineTree.fromRawInterval (α := Int) (.upTo 3)).intersect dbg
    (TineTree.fromRawInterval (.frm (-3))) >>= (·.intervals dbg)) [.rightOpen (-3) 3] := by decide

-- src/test/tine_tree/intersect.rs:367
example : ∀ dbg, SameSetOk ((TineTree.fromRawInterval (α := Int) (.upTo 3)).intersect dbg
    (TineTree.fromRawInterval .full) >>= (·.intervals dbg)) [.upTo 3] := by decide

-- src/test/tine_tree/intersect.rs:374
example : ∀ dbg, SameSetOk ((TineTree.fromRawInterval (α := Int) (.upTo 3)).intersect dbg
    (TineTree.fromRawInterval .empty) >>= (·.intervals dbg)) [] := by decide

-- src/test/tine_tree/intersect.rs:375
example : ∀ dbg, SameSetOk ((TineTree.fromRawInterval (α := Int) (.upTo 3)).intersect dbg
    (TineTree.fromRawInterval (.point 13)) >>= (·.intervals dbg)) [] := by decide

-- src/test/tine_tree/intersect.rs:376
example : ∀ dbg, SameSetOk ((TineTree.fromRawInterval (α := Int) (.upTo 3)).intersect dbg
    (TineTree.fromRawInterval (.opn 10 13)) >>= (·.intervals dbg)) [] := by decide

-- src/test/tine_tree/intersect.rs:377
example : ∀ dbg, SameSetOk ((TineTree.fromRawInterval (α := Int) (.upTo 3)).intersect dbg
    (TineTree.fromRawInterval (.leftOpen 10 13)) >>= (·.intervals dbg)) [] := by decide

-- src/test/tine_tree/intersect.rs:378
example : ∀ dbg, SameSetOk ((TineTree.fromRawInterval (α := Int) (.upTo 3)).intersect dbg
    (TineTree.fromRawInterval (.rightOpen 10 13)) >>= (·.intervals dbg)) [] := by decide

-- src/test/tine_tree/intersect.rs:379
example : ∀ dbg, SameSetOk ((TineTree.fromRawInterval (α := Int) (.upTo 3)).intersect dbg
    (TineTree.fromRawInterval (.closed 10 13)) >>= (·.intervals dbg)) [] := by decide

-- src/test/tine_tree/intersect.rs:380
example : ∀ dbg, SameSetOk ((TineTree.fromRawInterval (α := Int) (.upTo 3)).intersect dbg
    (TineTree.fromRawInterval (.upTo 13)) >>= (·.intervals dbg)) [.upTo 3] := by decide

-- src/test/tine_tree/intersect.rs:381
example : ∀ dbg, SameSetOk ((TineTree.fromRawInterval (α := Int) (.upTo 3)).intersect dbg
    (TineTree.fromRawInterval (.upFrom 13)) >>= (·.intervals dbg)) [] := by decide

-- src/test/tine_tree/intersect.rs:382
example : ∀ dbg, SameSetOk ((TineTree.fromRawInterval (α := Int) (.upTo 3)).intersect dbg
    (TineTree.fromRawInterval (.to 13)) >>= (·.intervals dbg)) [.upTo 3] := by decide

-- src/test/tine_tree/intersect.rs:383
example : ∀ dbg, SameSetOk ((TineTree.fromRawInterval (α := Int) (.upTo 3)).intersect dbg
    (TineTree.fromRawInterval (.frm 13)) >>= (·.intervals dbg)) [] := by decide

-- src/test/tine_tree/intersect.rs:384
example : ∀ dbg, SameSetOk ((TineTree.fromRawInterval (α := Int) (.upTo 3)).intersect dbg
    (TineTree.fromRawInterval .full) >>= (·.intervals dbg)) [.upTo 3] := by decide

-- src/test/tine_tree/intersect.rs:391
example : ∀ dbg, SameSetOk ((TineTree.fromRawInterval (α := Int) (.upFrom 0)).intersect dbg
    (TineTree.fromRawInterval .empty) >>= (·.intervals dbg)) [] := by decide

-- src/test/tine_tree/intersect.rs:392
example : ∀ dbg, SameSetOk ((TineTree.fromRawInterval (α := Int) (.upFrom 0)).intersect dbg
    (TineTree.fromRawInterval (.point 2)) >>= (·.intervals dbg)) [.point 2] := by decide

-- src/test/tine_tree/intersect.rs:393
example : ∀ dbg, SameSetOk ((TineTree.fromRawInterval (α := Int) (.upFrom 0)).intersect dbg
    (TineTree.fromRawInterval (.opn 0 3)) >>= (·.intervals dbg)) [.opn 0 3] := by decide

-- src/test/tine_tree/intersect.rs:394
example : ∀ dbg, SameSetOk ((TineTree.fromRawInterval (α := Int) (.upFrom 0)).intersect dbg
    (TineTree.fromRawInterval (.leftOpen 0 3)) >>= (·.intervals dbg)) [.leftOpen 0 3] := by decide

-- src/test/tine_tree/intersect.rs:395
example : ∀ dbg, SameSetOk ((TineTree.fromRawInterval (α := Int) (.upFrom 0)).intersect dbg
    (TineTree.fromRawInterval (.rightOpen 0 3)) >>= (·.intervals dbg)) [.opn 0 3] := by decide

-- src/test/tine_tree/intersect.rs:396
example : ∀ dbg, SameSetOk ((TineTree.fromRawInterval (α := Int) (.upFrom 0)).intersect dbg
    (TineTree.fromRawInterval (.closed 0 3)) >>= (·.intervals dbg)) [.leftOpen 0 3] := by decide

-- src/test/tine_tree/intersect.rs:397
example : ∀ dbg, SameSetOk ((TineTree.fromRawInterval (α := Int) (.upFrom 0)).intersect dbg
    (TineTree.fromRawInterval (.upTo 2)) >>= (·.intervals dbg)) [.opn 0 2] := by decide

-- src/test/tine_tree/intersect.rs:398
example : ∀ dbg, SameSetOk ((TineTree.fromRawInterval (α := Int) (.upFrom 0)).intersect dbg
    (TineTree.fromRawInterval (.upFrom 2)) >>= (·.intervals dbg)) [.upFrom 2] := by decide

-- src/test/tine_tree/intersect.rs:399
example : ∀ dbg, SameSetOk ((TineTree.fromRawInterval (α := Int) (.upFrom 0)).intersect dbg
    (TineTree.fromRawInterval (.to 2)) >>= (·.intervals dbg)) [.leftOpen 0 2] := by decide

-- src/test/tine_tree/intersect.rs:400
example : ∀ dbg, SameSetOk ((TineTree.fromRawInterval (α := Int) (.upFrom 0)).intersect dbg
    (TineTree.fromRawInterval (.frm 2)) >>= (·.intervals dbg)) [.frm 2] := by decide

-- src/test/tine_tree/intersect.rs:401
example : ∀ dbg, SameSetOk ((TineTree.fromRawInterval (α := Int) (.upFrom 0)).intersect dbg
    (TineTree.fromRawInterval .full) >>= (·.intervals dbg)) [.upFrom 0] := by decide

-- src/test/tine_tree/intersect.rs:408
example : ∀ dbg, SameSetOk ((TineTree.fromRawInterval (α := Int) (.upFrom 0)).intersect dbg
    (TineTree.fromRawInterval .empty) >>= (·.intervals dbg)) [] := by decide

-- src/test/tine_tree/intersect.rs:409
example : ∀ dbg, SameSetOk ((TineTree.fromRawInterval (α := Int) (.upFrom 0)).intersect dbg
    (TineTree.fromRawInterval (.point (-3))) >>= (·.intervals dbg)) [] := by decide

-- src/test/tine_tree/intersect.rs:410
example : ∀ dbg, SameSetOk ((TineTree.fromRawInterval (α := Int) (.upFrom 0)).intersect dbg
    (TineTree.fromRawInterval (.opn (-3) (-1))) >>= (·.intervals dbg)) [] := by decide

-- src/test/tine_tree/intersect.rs:411
example : ∀ dbg, SameSetOk ((TineTree.fromRawInterval (α := Int) (.upFrom 0)).intersect dbg
    (TineTree.fromRawInterval (.leftOpen (-3) (-1))) >>= (·.intervals dbg)) [] := by decide

-- src/test/tine_tree/intersect.rs:412
example : ∀ dbg, SameSetOk ((TineTree.fromRawInterval (α := Int) (.upFrom 0)).intersect dbg
    (TineTree.fromRawInterval (.rightOpen (-3) (-1))) >>= (·.intervals dbg)) [] := by decide

-- src/test/tine_tree/intersect.rs:413
example : ∀ dbg, SameSetOk ((TineTree.fromRawInterval (α := Int) (.upFrom 0)).intersect dbg
    (TineTree.fromRawInterval (.closed (-3) (-1))) >>= (·.intervals dbg)) [] := by decide

-- src/test/tine_tree/intersect.rs:414
example : ∀ dbg, SameSetOk ((TineTree.fromRawInterval (α := Int) (.upFrom 0)).intersect dbg
    (TineTree.fromRawInterval (.upTo (-3))) >>= (·.intervals dbg)) [] := by decide

-- src/test/tine_tree/intersect.rs:415
example : ∀ dbg, SameSetOk ((TineTree.fromRawInterval (α := Int) (.upFrom 0)).intersect dbg
    (TineTree.fromRawInterval (.upFrom (-3))) >>= (·.intervals dbg)) [.upFrom 0] := by decide

-- src/test/tine_tree/intersect.rs:416
example : ∀ dbg, SameSetOk ((TineTree.fromRawInterval (α := Int) (.upFrom 0)).intersect dbg
    (TineTree.fromRawInterval (.to (-3))) >>= (·.intervals dbg)) [] := by decide

-- src/test/tine_tree/intersect.rs:417
example : ∀ dbg, SameSetOk ((TineTree.fromRawInterval (α := Int) (.upFrom 0)).intersect dbg
    (TineTree.fromRawInterval (.frm (-3))) >>= (·.intervals dbg)) [.upFrom 0] := by decide

-- src/test/tine_tree/intersect.rs:418
example : ∀ dbg, SameSetOk ((TineTree.fromRawInterval (α := Int) (.upFrom 0)).intersect dbg
    (TineTree.fromRawInterval .full) >>= (·.intervals dbg)) [.upFrom 0] := by decide

-- src/test/tine_tree/intersect.rs:425
example : ∀ dbg, SameSetOk ((TineTree.fromRawInterval (α := Int) (.upFrom 0)).intersect dbg
    (TineTree.fromRawInterval .empty) >>= (·.intervals dbg)) [] := by decide

-- src/test/tine_tree/intersect.rs:426
example : ∀ dbg, SameSetOk ((TineTree.fromRawInterval (α := Int) (.upFrom 0)).intersect dbg
    (TineTree.fromRawInterval (.point 13)) >>= (·.intervals dbg)) [.point 13] := by decide

-- src/test/tine_tree/intersect.rs:427
example : ∀ dbg, SameSetOk ((TineTree.fromRawInterval (α := Int) (.upFrom 0)).intersect dbg
    (TineTree.fromRawInterval (.opn 10 13)) >>= (·.intervals dbg)) [.opn 10 13] := by decide

-- src/test/tine_tree/intersect.rs:428
example : ∀ dbg, SameSetOk ((TineTree.fromRawInterval (α := Int) (.upFrom 0)).intersect dbg
    (TineTree.fromRawInterval (.leftOpen 10 13)) >>= (·.intervals dbg)) [.leftOpen 10 13] := by decide

-- src/test/tine_tree/intersect.rs:429
example : ∀ dbg, SameSetOk ((TineTree.fromRawInterval (α := Int) (.upFrom 0)).intersect dbg
    (TineTree.fromRawInterval (.rightOpen 10 13)) >>= (·.intervals dbg)) [.rightOpen 10 13] := by decide

-- src/test/tine_tree/intersect.rs:430
example : ∀ dbg, SameSetOk ((TineTree.fromRawInterval (α := Int) (.upFrom 0)).intersect dbg
    (TineTree.fromRawInterval (.closed 10 13)) >>= (·.intervals dbg)) [.closed 10 13] := by decide

-- src/test/tine_tree/intersect.rs:431
example : ∀ dbg, SameSetOk ((TineTree.fromRawInterval (α := Int) (.upFrom 0)).intersect dbg
    (TineTree.fromRawInterval (.upTo 13)) >>= (·.intervals dbg)) [.opn 0 13] := by decide

-- src/test/tine_tree/intersect.rs:432
example : ∀ dbg, SameSetOk ((TineTree.fromRawInterval (α := Int) (.upFrom 0)).intersect dbg
    (TineTree.fromRawInterval (.upFrom 13)) >>= (·.intervals dbg)) [.upFrom 13] := by decide

-- src/test/tine_tree/intersect.rs:433
example : ∀ dbg, SameSetOk ((TineTree.fromRawInterval (α := Int) (.upFrom 0)).intersect dbg
    (TineTree.fromRawInterval (.to 13)) >>= (·.intervals dbg)) [.leftOpen 0 13] := by decide

-- src/test/tine_tree/intersect.rs:434
example : ∀ dbg, SameSetOk ((TineTree.fromRawInterval (α := Int) (.upFrom 0)).intersect dbg
    (TineTree.fromRawInterval (.frm 13)) >>= (·.intervals dbg)) [.frm 13] := by decide

-- src/test/tine_tree/intersect.rs:435
example : ∀ dbg, SameSetOk ((TineTree.fromRawInterval (α := Int) (.upFrom 0)).intersect dbg
    (TineTree.fromRawInterval .full) >>= (·.intervals dbg)) [.upFrom 0] := by decide

-- src/test/tine_tree/intersect.rs:442
example : ∀ dbg, SameSetOk ((TineTree.fromRawInterval (α := Int) (.to 3)).intersect dbg
    (TineTree.fromRawInterval .empty) >>= (·.intervals dbg)) [] := by decide

-- src/test/tine_tree/intersect.rs:443
example : ∀ dbg, SameSetOk ((TineTree.fromRawInterval (α := Int) (.to 3)).intersect dbg
    (TineTree.fromRawInterval (.point 2)) >>= (·.intervals dbg)) [.point 2] := by decide

-- src/test/tine_tree/intersect.rs:444
example : ∀ dbg, SameSetOk ((TineTree.fromRawInterval (α := Int) (.to 3)).intersect dbg
    (TineTree.fromRawInterval (.opn 0 3)) >>= (·.intervals dbg)) [.opn 0 3] := by decide

-- src/test/tine_tree/intersect.rs:445
example : ∀ dbg, SameSetOk ((TineTree.fromRawInterval (α := Int) (.to 3)).intersect dbg
    (TineTree.fromRawInterval (.leftOpen 0 3)) >>= (·.intervals dbg)) [.leftOpen 0 3] := by decide

-- src/test/tine_tree/intersect.rs:446
example : ∀ dbg, SameSetOk ((TineTree.fromRawInterval (α := Int) (.to 3)).intersect dbg
    (TineTree.fromRawInterval (.rightOpen 0 3)) >>= (·.intervals dbg)) [.rightOpen 0 3] := by decide

-- src/test/tine_tree/intersect.rs:447
example : ∀ dbg, SameSetOk ((TineTree.fromRawInterval (α := Int) (.to 3)).intersect dbg
    (TineTree.fromRawInterval (.closed 0 3)) >>= (·.intervals dbg)) [.closed 0 3] := by decide

-- src/test/tine_tree/intersect.rs:448
example : ∀ dbg, SameSetOk ((TineTree.fromRawInterval (α := Int) (.to 3)).intersect dbg
    (TineTree.fromRawInterval (.upTo 2)) >>= (·.intervals dbg)) [.upTo 2] := by decide

-- src/test/tine_tree/intersect.rs:449
example : ∀ dbg, SameSetOk ((TineTree.fromRawInterval (α := Int) (.to 3)).intersect dbg
    (TineTree.fromRawInterval (.upFrom 2)) >>= (·.intervals dbg)) [.leftOpen 2 3] := by decide

-- src/test/tine_tree/intersect.rs:450
example : ∀ dbg, SameSetOk ((TineTree.fromRawInterval (α := Int) (.to 3)).intersect dbg
    (TineTree.fromRawInterval (.to 2)) >>= (·.intervals dbg)) [.to 2] := by decide

-- src/test/tine_tree/intersect.rs:451
example : ∀ dbg, SameSetOk ((TineTree.fromRawInterval (α := Int) (.to 3)).intersect dbg
    (TineTree.fromRawInterval (.frm 2)) >>= (·.intervals dbg)) [.closed 2 3] := by decide

-- src/test/tine_tree/intersect.rs:452
example : ∀ dbg, SameSetOk ((TineTree.fromRawInterval (α := Int) (.to 3)).intersect dbg
    (TineTree.fromRawInterval .full) >>= (·.intervals dbg)) [.to 3] := by decide

-- src/test/tine_tree/intersect.rs:459
example : ∀ dbg, SameSetOk ((TineTree.fromRawInterval (α := Int) (.to 3)).intersect dbg
    (TineTree.fromRawInterval .empty) >>= (·.intervals dbg)) [] := by decide

-- src/test/tine_tree/intersect.rs:460
example : ∀ dbg, SameSetOk ((TineTree.fromRawInterval (α := Int) (.to 3)).intersect dbg
    (TineTree.fromRawInterval (.point (-3))) >>= (·.intervals dbg)) [.point (-3)] := by decide

-- src/test/tine_tree/intersect.rs:461
example : ∀ dbg, SameSetOk ((TineTree.fromRawInterval (α := Int) (.to 3)).intersect dbg
    (TineTree.fromRawInterval (.opn (-3) (-1))) >>= (·.intervals dbg)) [.opn (-3) (-1)] := by decide

-- src/test/tine_tree/intersect.rs:462
example : ∀ dbg, SameSetOk ((TineTree.fromRawInterval (α := Int) (.to 3)).intersect dbg
    (TineTree.fromRawInterval (.leftOpen (-3) (-1))) >>= (·.intervals dbg)) [.leftOpen (-3) (-1)] := by decide

-- src/test/tine_tree/intersect.rs:463
example : ∀ dbg, SameSetOk ((TineTree.fromRawInterval (α := Int) (.to 3)).intersect dbg
    (TineTree.fromRawInterval (.rightOpen (-3) (-1))) >>= (·.intervals dbg)) [.rightOpen (-3) (-1)] := by decide

-- src/test/tine_tree/intersect.rs:464
example : ∀ dbg, SameSetOk ((TineTree.fromRawInterval (α := Int) (.to 3)).intersect dbg
    (TineTree.fromRawInterval (.closed (-3) (-1))) >>= (·.intervals dbg)) [.closed (-3) (-1)] := by decide

-- src/test/tine_tree/intersect.rs:465
example : ∀ dbg, SameSetOk ((TineTree.fromRawInterval (α := Int) (.to 3)).intersect dbg
    (TineTree.fromRawInterval (.upTo (-3))) >>= (·.intervals dbg)) [.upTo (-3)] := by decide

-- src/test/tine_tree/intersect.rs:466
example : ∀ dbg, SameSetOk ((TineTree.fromRawInterval (α := Int) (.to 3)).intersect dbg
    (TineTree.fromRawInterval (.upFrom (-3))) >>= (·.intervals dbg)) [.leftOpen (-3) 3] := by decide

-- src/test/tine_tree/intersect.rs:467
example : ∀ dbg, SameSetOk ((TineTree.fromRawInterval (α := Int) (.to 3)).intersect dbg
    (TineTree.fromRawInterval (.to (-3))) >>= (·.intervals dbg)) [.to (-3)] := by decide

-- src/test/tine_tree/intersect.rs:468
example : ∀ dbg, SameSetOk ((TineTree.fromRawInterval (α := Int) (.to 3)).intersect dbg
    (TineTree.fromRawInterval (.frm (-3))) >>= (·.intervals dbg)) [.closed (-3) 3] := by decide

-- src/test/tine_tree/intersect.rs:469
example : ∀ dbg, SameSetOk ((TineTree.fromRawInterval (α := Int) (.to 3)).intersect dbg
    (TineTree.fromRawInterval .full) >>= (·.intervals dbg)) [.to 3] := by decide

-- src/test/tine_tree/intersect.rs:476
example : ∀ dbg, SameSetOk ((TineTree.fromRawInterval (α := Int) (.to 3)).intersect dbg
    (TineTree.fromRawInterval .empty) >>= (·.intervals dbg)) [] := by decide

-- src/test/tine_tree/intersect.rs:477
example : ∀ dbg, SameSetOk ((TineTree.fromRawInterval (α := Int) (.to 3)).intersect dbg
    (TineTree.fromRawInterval (.point 13)) >>= (·.intervals dbg)) [] := by decide

-- src/test/tine_tree/intersect.rs:478
example : ∀ dbg, SameSetOk ((TineTree.fromRawInterval (α := Int) (.to 3)).intersect dbg
    (TineTree.fromRawInterval (.opn 10 13)) >>= (·.intervals dbg)) [] := by decide

-- src/test/tine_tree/intersect.rs:479
example : ∀ dbg, SameSetOk ((TineTree.fromRawInterval (α := Int) (.to 3)).intersect dbg
    (TineTree.fromRawInterval (.leftOpen 10 13)) >>= (·.intervals dbg)) [] := by decide

-- src/test/tine_tree/intersect.rs:480
example : ∀ dbg, SameSetOk ((TineTree.fromRawInterval (α := Int) (.to 3)).intersect dbg
    (TineTree.fromRawInterval (.rightOpen 10 13)) >>= (·.intervals dbg)) [] := by decide

-- src/test/tine_tree/intersect.rs:481
example : ∀ dbg, SameSetOk ((TineTree.fromRawInterval (α := Int) (.to 3)).intersect dbg
    (TineTree.fromRawInterval (.closed 10 13)) >>= (·.intervals dbg)) [] := by decide

-- src/test/tine_tree/intersect.rs:482
example : ∀ dbg, SameSetOk ((TineTree.fromRawInterval (α := Int) (.to 3)).intersect dbg
    (TineTree.fromRawInterval (.upTo 13)) >>= (·.intervals dbg)) [.to 3] := by decide

-- src/test/tine_tree/intersect.rs:483
example : ∀ dbg, SameSetOk ((TineTree.fromRawInterval (α := Int) (.to 3)).intersect dbg
    (TineTree.fromRawInterval (.upFrom 13)) >>= (·.intervals dbg)) [] := by decide

-- src/test/tine_tree/intersect.rs:484
example : ∀ dbg, SameSetOk ((TineTree.fromRawInterval (α := Int) (.to 3)).intersect dbg
    (TineTree.fromRawInterval (.to 13)) >>= (·.intervals dbg)) [.to 3] := by decide

-- src/test/tine_tree/intersect.rs:485
example : ∀ dbg, SameSetOk ((TineTree.fromRawInterval (α := Int) (.to 3)).intersect dbg
    (TineTree.fromRawInterval (.frm 13)) >>= (·.intervals dbg)) [] := by decide

-- src/test/tine_tree/intersect.rs:486
example : ∀ dbg, SameSetOk ((TineTree.fromRawInterval (α := Int) (.to 3)).intersect dbg
    (TineTree.fromRawInterval .full) >>= (·.intervals dbg)) [.to 3] := by decide

-- src/test/tine_tree/intersect.rs:493
example : ∀ dbg, SameSetOk ((TineTree.fromRawInterval (α := Int) (.frm 0)).intersect dbg
    (TineTree.fromRawInterval .empty) >>= (·.intervals dbg)) [] := by decide

-- src/test/tine_tree/intersect.rs:494
example : ∀ dbg, SameSetOk ((TineTree.fromRawInterval (α := Int) (.frm 0)).intersect dbg
    (TineTree.fromRawInterval (.point 2)) >>= (·.intervals dbg)) [.point 2] := by decide

-- src/test/tine_tree/intersect.rs:495
example : ∀ dbg, SameSetOk ((TineTree.fromRawInterval (α := Int) (.frm 0)).intersect dbg
    (TineTree.fromRawInterval (.opn 0 3)) >>= (·.intervals dbg)) [.opn 0 3] := by decide

-- src/test/tine_tree/intersect.rs:496
example : ∀ dbg, SameSetOk ((TineTree.fromRawInterval (α := Int) (.frm 0)).intersect dbg
    (TineTree.fromRawInterval (.leftOpen 0 3)) >>= (·.intervals dbg)) [.leftOpen 0 3] := by decide

-- src/test/tine_tree/intersect.rs:497
example : ∀ dbg, SameSetOk ((TineTree.fromRawInterval (α := Int) (.frm 0)).intersect dbg
    (TineTree.fromRawInterval (.rightOpen 0 3)) >>= (·.intervals dbg)) [.rightOpen 0 3] := by decide

-- src/test/tine_tree/intersect.rs:498
example : ∀ dbg, SameSetOk ((TineTree.fromRawInterval (α := Int) (.frm 0)).intersect dbg
    (TineTree.fromRawInterval (.closed 0 3)) >>= (·.intervals dbg)) [.closed 0 3] := by decide

-- src/test/tine_tree/intersect.rs:499
example : ∀ dbg, SameSetOk ((TineTree.fromRawInterval (α := Int) (.frm 0)).intersect dbg
    (TineTree.fromRawInterval (.upTo 2)) >>= (·.intervals dbg)) [.rightOpen 0 2] := by decide

-- src/test/tine_tree/intersect.rs:500
example : ∀ dbg, SameSetOk ((TineTree.fromRawInterval (α := Int) (.frm 0)).intersect dbg
    (TineTree.fromRawInterval (.upFrom 2)) >>= (·.intervals dbg)) [.upFrom 2] := by decide

-- src/test/tine_tree/intersect.rs:501
example : ∀ dbg, SameSetOk ((TineTree.fromRawInterval (α := Int) (.frm 0)).intersect dbg
    (TineTree.fromRawInterval (.to 2)) >>= (·.intervals dbg)) [.closed 0 2] := by decide

-- src/test/tine_tree/intersect.rs:502
example : ∀ dbg, SameSetOk ((TineTree.fromRawInterval (α := Int) (.frm 0)).intersect dbg
    (TineTree.fromRawInterval (.frm 2)) >>= (·.intervals dbg)) [.frm 2] := by decide

-- src/test/tine_tree/intersect.rs:503
example : ∀ dbg, SameSetOk ((TineTree.fromRawInterval (α := Int) (.frm 0)).intersect dbg
    (TineTree.fromRawInterval .full) >>= (·.intervals dbg)) [.frm 0] := by decide

-- src/test/tine_tree/intersect.rs:510
example : ∀ dbg, SameSetOk ((TineTree.fromRawInterval (α := Int) (.frm 0)).intersect dbg
    (TineTree.fromRawInterval .empty) >>= (·.intervals dbg)) [] := by decide

-- src/test/tine_tree/intersect.rs:511
example : ∀ dbg, SameSetOk ((TineTree.fromRawInterval (α := Int) (.frm 0)).intersect dbg
    (TineTree.fromRawInterval (.point (-3))) >>= (·.intervals dbg)) [] := by decide

-- src/test/tine_tree/intersect.rs:512
example : ∀ dbg, SameSetOk ((TineTree.fromRawInterval (α := Int) (.frm 0)).intersect dbg
    (TineTree.fromRawInterval (.opn (-3) (-1))) >>= (·.intervals dbg)) [] := by decide

-- src/test/tine_tree/intersect.rs:513
example : ∀ dbg, SameSetOk ((TineTree.fromRawInterval (α := Int) (.frm 0)).intersect dbg
    (TineTree.fromRawInterval (.leftOpen (-3) (-1))) >>= (·.intervals dbg)) [] := by decide

-- src/test/tine_tree/intersect.rs:514
example : ∀ dbg, SameSetOk ((TineTree.fromRawInterval (α := Int) (.frm 0)).intersect dbg
    (TineTree.fromRawInterval (.rightOpen (-3) (-1))) >>= (·.intervals dbg)) [] := by decide

-- src/test/tine_tree/intersect.rs:515
example : ∀ dbg, SameSetOk ((TineTree.fromRawInterval (α := Int) (.frm 0)).intersect dbg
    (TineTree.fromRawInterval (.closed (-3) (-1))) >>= (·.intervals dbg)) [] := by decide

-- src/test/tine_tree/intersect.rs:516
example : ∀ dbg, SameSetOk ((TineTree.fromRawInterval (α := Int) (.frm 0)).intersect dbg
    (TineTree.fromRawInterval (.upTo (-3))) >>= (·.intervals dbg)) [] := by decide

-- src/test/tine_tree/intersect.rs:517
example : ∀ dbg, SameSetOk ((TineTree.fromRawInterval (α := Int) (.frm 0)).intersect dbg
    (TineTree.fromRawInterval (.upFrom (-3))) >>= (·.intervals dbg)) [.frm 0] := by decide

-- src/test/tine_tree/intersect.rs:518
example : ∀ dbg, SameSetOk ((TineTree.fromRawInterval (α := Int) (.frm 0)).intersect dbg
    (TineTree.fromRawInterval (.to (-3))) >>= (·.intervals dbg)) [] := by decide

-- src/test/tine_tree/intersect.rs:519
example : ∀ dbg, SameSetOk ((TineTree.fromRawInterval (α := Int) (.frm 0)).intersect dbg
    (TineTree.fromRawInterval (.frm (-3))) >>= (·.intervals dbg)) [.frm 0] := by decide

-- src/test/tine_tree/intersect.rs:520
example : ∀ dbg, SameSetOk ((TineTree.fromRawInterval (α := Int) (.frm 0)).intersect dbg
    (TineTree.fromRawInterval .full) >>= (·.intervals dbg)) [.frm 0] := by decide

-- src/test/tine_tree/intersect.rs:527
example : ∀ dbg, SameSetOk ((TineTree.fromRawInterval (α := Int) (.frm 0)).intersect dbg
    (TineTree.fromRawInterval .empty) >>= (·.intervals dbg)) [] := by decide

-- src/test/tine_tree/intersect.rs:528
example : ∀ dbg, SameSetOk ((TineTree.fromRawInterval (α := Int) (.frm 0)).intersect dbg
    (TineTree.fromRawInterval (.point 13)) >>= (·.intervals dbg)) [.point 13] := by decide

-- src/test/tine_tree/intersect.rs:529
example : ∀ dbg, SameSetOk ((TineTree.fromRawInterval (α := Int) (.frm 0)).intersect dbg
    (TineTree.fromRawInterval (.opn 10 13)) >>= (·.intervals dbg)) [.opn 10 13] := by decide

-- src/test/tine_tree/intersect.rs:530
example : ∀ dbg, SameSetOk ((TineTree.fromRawInterval (α := Int) (.frm 0)).intersect dbg
    (TineTree.fromRawInterval (.leftOpen 10 13)) >>= (·.intervals dbg)) [.leftOpen 10 13] := by decide

-- src/test/tine_tree/intersect.rs:531
example : ∀ dbg, SameSetOk ((TineTree.fromRawInterval (α := Int) (.frm 0)).intersect dbg
    (TineTree.fromRawInterval (.rightOpen 10 13)) >>= (·.intervals dbg)) [.rightOpen 10 13] := by decide

-- src/test/tine_tree/intersect.rs:532
example : ∀ dbg, SameSetOk ((TineTree.fromRawInterval (α := Int) (.frm 0)).intersect dbg
    (TineTree.fromRawInterval (.closed 10 13)) >>= (·.intervals dbg)) [.closed 10 13] := by decide

-- src/test/tine_tree/intersect.rs:533
example : ∀ dbg, SameSetOk ((TineTree.fromRawInterval (α := Int) (.frm 0)).intersect dbg
    (TineTree.fromRawInterval (.upTo 13)) >>= (·.intervals dbg)) [.rightOpen 0 13] := by decide

-- src/test/tine_tree/intersect.rs:534
example : ∀ dbg, SameSetOk ((TineTree.fromRawInterval (α := Int) (.frm 0)).intersect dbg
    (TineTree.fromRawInterval (.upFrom 13)) >>= (·.intervals dbg)) [.upFrom 13] := by decide

-- src/test/tine_tree/intersect.rs:535
example : ∀ dbg, SameSetOk ((TineTree.fromRawInterval (α := Int) (.frm 0)).intersect dbg
    (TineTree.fromRawInterval (.to 13)) >>= (·.intervals dbg)) [.closed 0 13] := by decide

-- src/test/tine_tree/intersect.rs:536
example : ∀ dbg, SameSetOk ((TineTree.fromRawInterval (α := Int) (.frm 0)).intersect dbg
    (TineTree.fromRawInterval (.frm 13)) >>= (·.intervals dbg)) [.frm 13] := by decide

-- src/test/tine_tree/intersect.rs:537
example : ∀ dbg, SameSetOk ((TineTree.fromRawInterval (α := Int) (.frm 0)).intersect dbg
    (TineTree.fromRawInterval .full) >>= (·.intervals dbg)) [.frm 0] := by decide

-- src/test/tine_tree/intersect.rs:544
example : ∀ dbg, SameSetOk ((TineTree.fromRawInterval (α := Int) .full).intersect dbg
    (TineTree.fromRawInterval .empty) >>= (·.intervals dbg)) [] := by decide

-- src/test/tine_tree/intersect.rs:545
example : ∀ dbg, SameSetOk ((TineTree.fromRawInterval (α := Int) .full).intersect dbg
    (TineTree.fromRawInterval (.point 0)) >>= (·.intervals dbg)) [.point 0] := by decide

-- src/test/tine_tree/intersect.rs:546
example : ∀ dbg, SameSetOk ((TineTree.fromRawInterval (α := Int) .full).intersect dbg
    (TineTree.fromRawInterval (.opn 0 3)) >>= (·.intervals dbg)) [.opn 0 3] := by decide

-- src/test/tine_tree/intersect.rs:547
example : ∀ dbg, SameSetOk ((TineTree.fromRawInterval (α := Int) .full).intersect dbg
    (TineTree.fromRawInterval (.leftOpen 0 3)) >>= (·.intervals dbg)) [.leftOpen 0 3] := by decide

-- src/test/tine_tree/intersect.rs:548
example : ∀ dbg, SameSetOk ((TineTree.fromRawInterval (α := Int) .full).intersect dbg
    (TineTree.fromRawInterval (.rightOpen 0 3)) >>= (·.intervals dbg)) [.rightOpen 0 3] := by decide

-- src/test/tine_tree/intersect.rs:549
example : ∀ dbg, SameSetOk ((TineTree.fromRawInterval (α := Int) .full).intersect dbg
    (TineTree.fromRawInterval (.closed 0 3)) >>= (·.intervals dbg)) [.closed 0 3] := by decide

-- src/test/tine_tree/intersect.rs:550
example : ∀ dbg, SameSetOk ((TineTree.fromRawInterval (α := Int) .full).intersect dbg
    (TineTree.fromRawInterval (.upTo 0)) >>= (·.intervals dbg)) [.upTo 0] := by decide

-- src/test/tine_tree/intersect.rs:551
example : ∀ dbg, SameSetOk ((TineTree.fromRawInterval (α := Int) .full).intersect dbg
    (TineTree.fromRawInterval (.upFrom 0)) >>= (·.intervals dbg)) [.upFrom 0] := by decide

-- src/test/tine_tree/intersect.rs:552
example : ∀ dbg, SameSetOk ((TineTree.fromRawInterval (α := Int) .full).intersect dbg
    (TineTree.fromRawInterval (.to 0)) >>= (·.intervals dbg)) [.to 0] := by decide

-- src/test/tine_tree/intersect.rs:553
example : ∀ dbg, SameSetOk ((TineTree.fromRawInterval (α := Int) .full).intersect dbg
    (TineTree.fromRawInterval (.frm 0)) >>= (·.intervals dbg)) [.frm 0] := by decide

-- src/test/tine_tree/intersect.rs:554
example : ∀ dbg, SameSetOk ((TineTree.fromRawInterval (α := Int) .full).intersect dbg
    (TineTree.fromRawInterval .full) >>= (·.intervals dbg)) [.full] := by decide

-- src/test/tine_tree/minus.rs:30
example : ∀ dbg, SameSetOk ((TineTree.fromRawInterval (α := Int) .empty).minus dbg
    (TineTree.fromRawInterval .empty) >>= (·.intervals dbg)) [] := by decide

-- src/test/tine_tree/minus.rs:31
example : ∀ dbg, SameSetOk ((TineTree.fromRawInterval (α := Int) .empty).minus dbg
    (TineTree.fromRawInterval (.point 3)) >>= (·.intervals dbg)) [] := by decide

-- src/test/tine_tree/minus.rs:32
example : ∀ dbg, SameSetOk ((TineTree.fromRawInterval (α := Int) .empty).minus dbg
    (TineTree.fromRawInterval (.opn 0 3)) >>= (·.intervals dbg)) [] := by decide

-- src/test/tine_tree/minus.rs:33
example : ∀ dbg, SameSetOk ((TineTree.fromRawInterval (α := Int) .empty).minus dbg
    (TineTree.fromRawInterval (.leftOpen 0 3)) >>= (·.intervals dbg)) [] := by decide

-- src/test/tine_tree/minus.rs:34
example : ∀ dbg, SameSetOk ((TineTree.fromRawInterval (α := Int) .empty).minus dbg
    (TineTree.fromRawInterval (.rightOpen 0 3)) >>= (·.intervals dbg)) [] := by decide

-- src/test/tine_tree/minus.rs:35
example : ∀ dbg, SameSetOk ((TineTree.fromRawInterval (α := Int) .empty).minus dbg
    (TineTree.fromRawInterval (.closed 0 3)) >>= (·.intervals dbg)) [] := by decide

-- src/test/tine_tree/minus.rs:36
example : ∀ dbg, SameSetOk ((TineTree.fromRawInterval (α := Int) .empty).minus dbg
    (TineTree.fromRawInterval (.upTo 3)) >>= (·.intervals dbg)) [] := by decide

-- src/test/tine_tree/minus.rs:37
example : ∀ dbg, SameSetOk ((TineTree.fromRawInterval (α := Int) .empty).minus dbg
    (TineTree.fromRawInterval (.upFrom 3)) >>= (·.intervals dbg)) [] := by decide

-- src/test/tine_tree/minus.rs:38
example : ∀ dbg, SameSetOk ((TineTree.fromRawInterval (α := Int) .empty).minus dbg
    (TineTree.fromRawInterval (.to 3)) >>= (·.intervals dbg)) [] := by decide

-- src/test/tine_tree/minus.rs:39
example : ∀ dbg, SameSetOk ((TineTree.fromRawInterval (α := Int) .empty).minus dbg
    (TineTree.fromRawInterval (.frm 3)) >>= (·.intervals dbg)) [] := by decide

-- src/test/tine_tree/minus.rs:40
example : ∀ dbg, SameSetOk ((TineTree.fromRawInterval (α := Int) .empty).minus dbg
    (TineTree.fromRawInterval .full) >>= (·.intervals dbg)) [] := by decide

-- src/test/tine_tree/minus.rs:47
example : ∀ dbg, SameSetOk ((TineTree.fromRawInterval (α := Int) (.point 3)).minus dbg
    (TineTree.fromRawInterval .empty) >>= (·.intervals dbg)) [.point 3] := by decide

-- src/test/tine_tree/minus.rs:48
example : ∀ dbg, SameSetOk ((TineTree.fromRawInterval (α := Int) (.point 3)).minus dbg
    (TineTree.fromRawInterval (.point 3)) >>= (·.intervals dbg)) [] := by decide

-- src/test/tine_tree/minus.rs:49
example : ∀ dbg, SameSetOk ((TineTree.fromRawInterval (α := Int) (.point 3)).minus dbg
    (TineTree.fromRawInterval (.opn 0 3)) >>= (·.intervals dbg)) [.point 3] := by decide

-- src/test/tine_tree/minus.rs:50
example : ∀ dbg, SameSetOk ((TineTree.fromRawInterval (α := Int) (.point 3)).minus dbg
    (TineTree.fromRawInterval (.leftOpen 0 3)) >>= (·.intervals dbg)) [] := by decide

-- src/test/tine_tree/minus.rs:51
example : ∀ dbg, SameSetOk ((TineTree.fromRawInterval (α := Int) (.point 3)).minus dbg
    (TineTree.fromRawInterval (.rightOpen 0 3)) >>= (·.intervals dbg)) [.point 3] := by decide

-- src/test/tine_tree/minus.rs:52
example : ∀ dbg, SameSetOk ((TineTree.fromRawInterval (α := Int) (.point 3)).minus dbg
    (TineTree.fromRawInterval (.closed 0 3)) >>= (·.intervals dbg)) [] := by decide

-- src/test/tine_tree/minus.rs:53
example : ∀ dbg, SameSetOk ((TineTree.fromRawInterval (α := Int) (.point 3)).minus dbg
    (TineTree.fromRawInterval (.upTo 3)) >>= (·.intervals dbg)) [.point 3] := by decide

-- src/test/tine_tree/minus.rs:54
example : ∀ dbg, SameSetOk ((TineTree.fromRawInterval (α := Int) (.point 3)).minus dbg
    (TineTree.fromRawInterval (.upFrom 3)) >>= (·.intervals dbg)) [.point 3] := by decide

-- src/test/tine_tree/minus.rs:55
example : ∀ dbg, SameSetOk ((TineTree.fromRawInterval (α := Int) (.point 3)).minus dbg
    (TineTree.fromRawInterval (.to 3)) >>= (·.intervals dbg)) [] := by decide

-- src/test/tine_tree/minus.rs:56
example : ∀ dbg, SameSetOk ((TineTree.fromRawInterval (α := Int) (.point 3)).minus dbg
    (TineTree.fromRawInterval (.frm 3)) >>= (·.intervals dbg)) [] := by decide

-- src/test/tine_tree/minus.rs:57
example : ∀ dbg, SameSetOk ((TineTree.fromRawInterval (α := Int) (.point 3)).minus dbg
    (TineTree.fromRawInterval .full) >>= (·.intervals dbg)) [] := by decide

-- src/test/tine_tree/minus.rs:64
example : ∀ dbg, SameSetOk ((TineTree.fromRawInterval (α := Int) (.point 3)).minus dbg
    (TineTree.fromRawInterval .empty) >>= (·.intervals dbg)) [.point 3] := by decide

-- src/test/tine_tree/minus.rs:65
example : ∀ dbg, SameSetOk ((TineTree.fromRawInterval (α := Int) (.point 3)).minus dbg
    (TineTree.fromRawInterval (.point (-1))) >>= (·.intervals dbg)) [.point 3] := by decide

-- src/test/tine_tree/minus.rs:66
example : ∀ dbg, SameSetOk ((TineTree.fromRawInterval (α := Int) (.point 3)).minus dbg
    (TineTree.fromRawInterval (.opn (-3) (-1))) >>= (·.intervals dbg)) [.point 3] := by decide

-- src/test/tine_tree/minus.rs:67
example : ∀ dbg, SameSetOk ((TineTree.fromRawInterval (α := Int) (.point 3)).minus dbg
    (TineTree.fromRawInterval (.leftOpen (-3) (-1))) >>= (·.intervals dbg)) [.point 3] := by decide

-- src/test/tine_tree/minus.rs:68
example : ∀ dbg, SameSetOk ((TineTree.fromRawInterval (α := Int) (.point 3)).minus dbg
    (TineTree.fromRawInterval (.rightOpen (-3) (-1))) >>= (·.intervals dbg)) [.point 3] := by decide

-- src/test/tine_tree/minus.rs:69
example : ∀ dbg, SameSetOk ((TineTree.fromRawInterval (α := Int) (.point 3)).minus dbg
    (TineTree.fromRawInterval (.closed (-3) (-1))) >>= (·.intervals dbg)) [.point 3] := by decide

-- src/test/tine_tree/minus.rs:70
example : ∀ dbg, SameSetOk ((TineTree.fromRawInterval (α := Int) (.point 3)).minus dbg
    (TineTree.fromRawInterval (.upTo (-3))) >>= (·.intervals dbg)) [.point 3] := by decide

-- src/test/tine_tree/minus.rs:71
example : ∀ dbg, SameSetOk ((TineTree.fromRawInterval (α := Int) (.point 3)).minus dbg
    (TineTree.fromRawInterval (.upFrom (-3))) >>= (·.intervals dbg)) [] := by decide

-- src/test/tine_tree/minus.rs:72
example : ∀ dbg, SameSetOk ((TineTree.fromRawInterval (α := Int) (.point 3)).minus dbg
    (TineTree.fromRawInterval (.to (-3))) >>= (·.intervals dbg)) [.point 3] := by decide

-- src/test/tine_tree/minus.rs:73
example : ∀ dbg, SameSetOk ((TineTree.fromRawInterval (α := Int) (.point 3)).minus dbg
    (TineTree.fromRawInterval (.frm (-3))) >>= (·.intervals dbg)) [] := by decide

-- src/test/tine_tree/minus.rs:74
example : ∀ dbg, SameSetOk ((TineTree.fromRawInterval (α := Int) (.point 3)).minus dbg
    (TineTree.fromRawInterval .full) >>= (·.intervals dbg)) [] := by decide

-- src/test/tine_tree/minus.rs:81
example : ∀ dbg, SameSetOk ((TineTree.fromRawInterval (α := Int) (.point 3)).minus dbg
    (TineTree.fromRawInterval .empty) >>= (·.intervals dbg)) [.point 3] := by decide

-- src/test/tine_tree/minus.rs:82
example : ∀ dbg, SameSetOk ((TineTree.fromRawInterval (α := Int) (.point 3)).minus dbg
    (TineTree.fromRawInterval (.point 10)) >>= (·.intervals dbg)) [.point 3] := by decide

-- src/test/tine_tree/minus.rs:83
example : ∀ dbg, SameSetOk ((TineTree.fromRawInterval (α := Int) (.point 3)).minus dbg
    (TineTree.fromRawInterval (.opn 10 13)) >>= (·.intervals dbg)) [.point 3] := by decide

-- src/test/tine_tree/minus.rs:84
example : ∀ dbg, SameSetOk ((TineTree.fromRawInterval (α := Int) (.point 3)).minus dbg
    (TineTree.fromRawInterval (.leftOpen 10 13)) >>= (·.intervals dbg)) [.point 3] := by decide

-- src/test/tine_tree/minus.rs:85
example : ∀ dbg, SameSetOk ((TineTree.fromRawInterval (α := Int) (.point 3)).minus dbg
    (TineTree.fromRawInterval (.rightOpen 10 13)) >>= (·.intervals dbg)) [.point 3] := by decide

-- src/test/tine_tree/minus.rs:86
example : ∀ dbg, SameSetOk ((TineTree.fromRawInterval (α := Int) (.point 3)).minus dbg
    (TineTree.fromRawInterval (.closed 10 13)) >>= (·.intervals dbg)) [.point 3] := by decide

-- src/test/tine_tree/minus.rs:87
example : ∀ dbg, SameSetOk ((TineTree.fromRawInterval (α := Int) (.point 3)).minus dbg
    (TineTree.fromRawInterval (.upTo 13)) >>= (·.intervals dbg)) [] := by decide

-- src/test/tine_tree/minus.rs:88
example : ∀ dbg, SameSetOk ((TineTree.fromRawInterval (α := Int) (.point 3)).minus dbg
    (TineTree.fromRawInterval (.upFrom 13)) >>= (·.intervals dbg)) [.point 3] := by decide

-- src/test/tine_tree/minus.rs:89
example : ∀ dbg, SameSetOk ((TineTree.fromRawInterval (α := Int) (.point 3)).minus dbg
    (TineTree.fromRawInterval (.to 13)) >>= (·.intervals dbg)) [] := by decide

-- src/test/tine_tree/minus.rs:90
example : ∀ dbg, SameSetOk ((TineTree.fromRawInterval (α := Int) (.point 3)).minus dbg
    (TineTree.fromRawInterval (.frm 13)) >>= (·.intervals dbg)) [.point 3] := by decide

-- src/test/tine_tree/minus.rs:91
example : ∀ dbg, SameSetOk ((TineTree.fromRawInterval (α := Int) (.point 3)).minus dbg
    (TineTree.fromRawInterval .full) >>= (·.intervals dbg)) [] := by decide

-- src/test/tine_tree/minus.rs:98
example : ∀ dbg, SameSetOk ((TineTree.fromRawInterval (α := Int) (.opn 0 3)).minus dbg
    (TineTree.fromRawInterval .empty) >>= (·.intervals dbg)) [.opn 0 3] := by decide

-- src/test/tine_tree/minus.rs:99
example : ∀ dbg, SameSetOk ((TineTree.fromRawInterval (α := Int) (.opn 0 3)).minus dbg
    (TineTree.fromRawInterval (.point 2)) >>= (·.intervals dbg)) [.opn 0 2, .opn 2 3] := by decide

-- src/test/tine_tree/minus.rs:100
example : ∀ dbg, SameSetOk ((TineTree.fromRawInterval (α := Int) (.opn 0 3)).minus dbg
    (TineTree.fromRawInterval (.opn 0 3)) >>= (·.intervals dbg)) [] := by decide

-- src/test/tine_tree/minus.rs:101
example : ∀ dbg, SameSetOk ((TineTree.fromRawInterval (α := Int) (.opn 0 3)).minus dbg
    (TineTree.fromRawInterval (.leftOpen 0 3)) >>= (·.intervals dbg)) [] := by decide

-- src/test/tine_tree/minus.rs:102
example : ∀ dbg, SameSetOk ((TineTree.fromRawInterval (α := Int) (.opn 0 3)).minus dbg
    (TineTree.fromRawInterval (.rightOpen 0 3)) >>= (·.intervals dbg)) [] := by decide

-- src/test/tine_tree/minus.rs:103
example : ∀ dbg, SameSetOk ((TineTree.fromRawInterval (α := Int) (.opn 0 3)).minus dbg
    (TineTree.fromRawInterval (.closed 0 3)) >>= (·.intervals dbg)) [] := by decide

-- src/test/tine_tree/minus.rs:104
example : ∀ dbg, SameSetOk ((TineTree.fromRawInterval (α := Int) (.opn 0 3)).minus dbg
    (TineTree.fromRawInterval (.upTo 2)) >>= (·.intervals dbg)) [.rightOpen 2 3] := by decide

-- src/test/tine_tree/minus.rs:105
example : ∀ dbg, SameSetOk ((TineTree.fromRawInterval (α := Int) (.opn 0 3)).minus dbg
    (TineTree.fromRawInterval (.upFrom 2)) >>= (·.intervals dbg)) [.leftOpen 0 2] := by decide

-- src/test/tine_tree/minus.rs:106
example : ∀ dbg, SameSetOk ((TineTree.fromRawInterval (α := Int) (.opn 0 3)).minus dbg
    (TineTree.fromRawInterval (.to 2)) >>= (·.intervals dbg)) [.opn 2 3] := by decide

-- src/test/tine_tree/minus.rs:107
example : ∀ dbg, SameSetOk ((TineTree.fromRawInterval (α := Int) (.opn 0 3)).minus dbg
    (TineTree.fromRawInterval (.frm 2)) >>= (·.intervals dbg)) [.opn 0 2] := by decide

-- src/test/tine_tree/minus.rs:108
example : ∀ dbg, SameSetOk ((TineTree.fromRawInterval (α := Int) (.opn 0 3)).minus dbg
    (TineTree.fromRawInterval .full) >>= (·.intervals dbg)) [] := by decide

-- src/test/tine_tree/minus.rs:115
example : ∀ dbg, SameSetOk ((TineTree.fromRawInterval (α := Int) (.opn 0 3)).minus dbg
    (TineTree.fromRawInterval .empty) >>= (·.intervals dbg)) [.opn 0 3] := by decide

-- src/test/tine_tree/minus.rs:116
example : ∀ dbg, SameSetOk ((TineTree.fromRawInterval (α := Int) (.opn 0 3)).minus dbg
    (TineTree.fromRawInterval (.point (-3))) >>= (·.intervals dbg)) [.opn 0 3] := by decide

-- src/test/tine_tree/minus.rs:117
example : ∀ dbg, SameSetOk ((TineTree.fromRawInterval (α := Int) (.opn 0 3)).minus dbg
    (TineTree.fromRawInterval (.opn (-3) (-1))) >>= (·.intervals dbg)) [.opn 0 3] := by decide

-- src/test/tine_tree/minus.rs:118
example : ∀ dbg, SameSetOk ((TineTree.fromRawInterval (α := Int) (.opn 0 3)).minus dbg
    (TineTree.fromRawInterval (.leftOpen (-3) (-1))) >>= (·.intervals dbg)) [.opn 0 3] := by decide

-- src/test/tine_tree/minus.rs:119
example : ∀ dbg, SameSetOk ((TineTree.fromRawInterval (α := Int) (.opn 0 3)).minus dbg
    (TineTree.fromRawInterval (.rightOpen (-3) (-1))) >>= (·.intervals dbg)) [.opn 0 3] := by decide

-- src/test/tine_tree/minus.rs:120
example : ∀ dbg, SameSetOk ((TineTree.fromRawInterval (α := Int) (.opn 0 3)).minus dbg
    (TineTree.fromRawInterval (.closed (-3) (-1))) >>= (·.intervals dbg)) [.opn 0 3] := by decide

-- src/test/tine_tree/minus.rs:121
example : ∀ dbg, SameSetOk ((TineTree.fromRawInterval (α := Int) (.opn 0 3)).minus dbg
    (TineTree.fromRawInterval (.upTo (-3))) >>= (·.intervals dbg)) [.opn 0 3] := by decide

-- src/test/tine_tree/minus.rs:122
example : ∀ dbg, SameSetOk ((TineTree.fromRawInterval (α := Int) (.opn 0 3)).minus dbg
    (TineTree.fromRawInterval (.upFrom (-3))) >>= (·.intervals dbg)) [] := by decide

-- src/test/tine_tree/minus.rs:123
example : ∀ dbg, SameSetOk ((TineTree.fromRawInterval (α := Int) (.opn 0 3)).minus dbg
    (TineTree.fromRawInterval (.to (-3))) >>= (·.intervals dbg)) [.opn 0 3] := by decide

-- src/test/tine_tree/minus.rs:124
example : ∀ dbg, SameSetOk ((TineTree.fromRawInterval (α := Int) (.opn 0 3)).minus dbg
    (TineTree.fromRawInterval (.frm (-3))) >>= (·.intervals dbg)) [] := by decide

-- src/test/tine_tree/minus.rs:125
example : ∀ dbg, SameSetOk ((TineTree.fromRawInterval (α := Int) (.opn 0 3)).minus dbg
    (TineTree.fromRawInterval .full) >>= (·.intervals dbg)) [] := by decide

-- src/test/tine_tree/minus.rs:132
example : ∀ dbg, SameSetOk ((TineTree.fromRawInterval (α := Int) (.opn 0 3)).minus dbg
    (TineTree.fromRawInterval .empty) >>= (·.intervals dbg)) [.opn 0 3] := by decide

-- src/test/tine_tree/minus.rs:133
example : ∀ dbg, SameSetOk ((TineTree.fromRawInterval (α := Int) (.opn 0 3)).minus dbg
    (TineTree.fromRawInterval (.point 13)) >>= (·.intervals dbg)) [.opn 0 3] := by decide

-- src/test/tine_tree/minus.rs:134
example : ∀ dbg, SameSetOk ((TineTree.fromRawInterval (α := Int) (.opn 0 3)).minus dbg
    (TineTree.fromRawInterval (.opn 10 13)) >>= (·.intervals dbg)) [.opn 0 3] := by decide

-- src/test/tine_tree/minus.rs:135
example : ∀ dbg, SameSetOk ((TineTree.fromRawInterval (α := Int) (.opn 0 3)).minus dbg
    (TineTree.fromRawInterval (.leftOpen 10 13)) >>= (·.intervals dbg)) [.opn 0 3] := by decide

-- src/test/tine_tree/minus.rs:136
example : ∀ dbg, SameSetOk ((TineTree.fromRawInterval (α := Int) (.opn 0 3)).minus dbg
    (TineTree.fromRawInterval (.rightOpen 10 13)) >>= (·.intervals dbg)) [.opn 0 3] := by decide

-- src/test/tine_tree/minus.rs:137
example : ∀ dbg, SameSetOk ((TineTree.fromRawInterval (α := Int) (.opn 0 3)).minus dbg
    (TineTree.fromRawInterval (.closed 10 13)) >>= (·.intervals dbg)) [.opn 0 3] := by decide

-- src/test/tine_tree/minus.rs:138
example : ∀ dbg, SameSetOk ((TineTree.fromRawInterval (α := Int) (.opn 0 3)).minus dbg
    (TineTree.fromRawInterval (.upTo 13)) >>= (·.intervals dbg)) [] := by decide

-- src/test/tine_tree/minus.rs:139
example : ∀ dbg, SameSetOk ((TineTree.fromRawInterval (α := Int) (.opn 0 3)).minus dbg
    (TineTree.fromRawInterval (.upFrom 13)) >>= (·.intervals dbg)) [.opn 0 3] := by decide

-- src/test/tine_tree/minus.rs:140
example : ∀ dbg, SameSetOk ((TineTree.fromRawInterval (α := Int) (.opn 0 3)).minus dbg
    (TineTree.fromRawInterval (.to 13)) >>= (·.intervals dbg)) [] := by decide

-- src/test/tine_tree/minus.rs:141
example : ∀ dbg, SameSetOk ((TineTree.fromRawInterval (α := Int) (.opn 0 3)).minus dbg
    (TineTree.fromRawInterval (.frm 13)) >>= (·.intervals dbg)) [.opn 0 3] := by decide

-- src/test/tine_tree/minus.rs:142
example : ∀ dbg, SameSetOk ((TineTree.fromRawInterval (α := Int) (.opn 0 3)).minus dbg
    (TineTree.fromRawInterval .full) >>= (·.intervals dbg)) [] := by decide

-- src/test/tine_tree/minus.rs:149
example : ∀ dbg, SameSetOk ((TineTree.fromRawInterval (α := Int) (.leftOpen 0 3)).minus dbg
    (TineTree.fromRawInterval .empty) >>= (·.intervals dbg)) [.leftOpen 0 3] := by decide

-- src/test/tine_tree/minus.rs:150
example : ∀ dbg, SameSetOk ((TineTree.fromRawInterval (α := Int) (.leftOpen 0 3)).minus dbg
    (TineTree.fromRawInterval (.point 2)) >>= (·.intervals dbg)) [.opn 0 2, .leftOpen 2 3] := by decide

-- src/test/tine_tree/minus.rs:151
example : ∀ dbg, SameSetOk ((TineTree.fromRawInterval (α := Int) (.leftOpen 0 3)).minus dbg
    (TineTree.fromRawInterval (.opn 0 3)) >>= (·.intervals dbg)) [.point 3] := by decide

-- src/test/tine_tree/minus.rs:152
example : ∀ dbg, SameSetOk ((TineTree.fromRawInterval (α := Int) (.leftOpen 0 3)).minus dbg
    (TineTree.fromRawInterval (.leftOpen 0 3)) >>= (·.intervals dbg)) [] := by decide

-- src/test/tine_tree/minus.rs:153
example : ∀ dbg, SameSetOk ((TineTree.fromRawInterval (α := Int) (.leftOpen 0 3)).minus dbg
    (TineTree.fromRawInterval (.rightOpen 0 3)) >>= (·.intervals dbg)) [.point 3] := by decide

-- src/test/tine_tree/minus.rs:154
example : ∀ dbg, SameSetOk ((TineTree.fromRawInterval (α := Int) (.leftOpen 0 3)).minus dbg
    (TineTree.fromRawInterval (.closed 0 3)) >>= (·.intervals dbg)) [] := by decide

-- src/test/tine_tree/minus.rs:155
example : ∀ dbg, SameSetOk ((TineTree.fromRawInterval (α := Int) (.leftOpen 0 3)).minus dbg
    (TineTree.fromRawInterval (.upTo 2)) >>= (·.intervals dbg)) [.closed 2 3] := by decide

-- src/test/tine_tree/minus.rs:156
example : ∀ dbg, SameSetOk ((TineTree.fromRawInterval (α := Int) (.leftOpen 0 3)).minus dbg
    (TineTree.fromRawInterval (.upFrom 2)) >>= (·.intervals dbg)) [.leftOpen 0 2] := by decide

-- src/test/tine_tree/minus.rs:157
example : ∀ dbg, SameSetOk ((TineTree.fromRawInterval (α := Int) (.leftOpen 0 3)).minus dbg
    (TineTree.fromRawInterval (.to 2)) >>= (·.intervals dbg)) [.leftOpen 2 3] := by decide

-- src/test/tine_tree/minus.rs:158
example : ∀ dbg, SameSetOk ((TineTree.fromRawInterval (α := Int) (.leftOpen 0 3)).minus dbg
    (TineTree.fromRawInterval (.frm 2)) >>= (·.intervals dbg)) [.opn 0 2] := by decide

-- src/test/tine_tree/minus.rs:159
example : ∀ dbg, SameSetOk ((TineTree.fromRawInterval (α := Int) (.leftOpen 0 3)).minus dbg
    (TineTree.fromRawInterval .full) >>= (·.intervals dbg)) [] := by decide

-- src/test/tine_tree/minus.rs:166
example : ∀ dbg, SameSetOk ((TineTree.fromRawInterval (α := Int) (.leftOpen 0 3)).minus dbg
    (TineTree.fromRawInterval .empty) >>= (·.intervals dbg)) [.leftOpen 0 3] := by decide

-- src/test/tine_tree/minus.rs:167
example : ∀ dbg, SameSetOk ((TineTree.fromRawInterval (α := Int) (.leftOpen 0 3)).minus dbg
    (TineTree.fromRawInterval (.point (-3))) >>= (·.intervals dbg)) [.leftOpen 0 3] := by decide

-- src/test/tine_tree/minus.rs:168
example : ∀ dbg, SameSetOk ((TineTree.fromRawInterval (α := Int) (.leftOpen 0 3)).minus dbg
    (TineTree.fromRawInterval (.opn (-3) (-1))) >>= (·.intervals dbg)) [.leftOpen 0 3] := by decide

-- src/test/tine_tree/minus.rs:169
example : ∀ dbg, SameSetOk ((TineTree.fromRawInterval (α := Int) (.leftOpen 0 3)).minus dbg
    (TineTree.fromRawInterval (.leftOpen (-3) (-1))) >>= (·.intervals dbg)) [.leftOpen 0 3] := by decide

-- src/test/tine_tree/minus.rs:170
example : ∀ dbg, SameSetOk ((TineTree.fromRawInterval (α := Int) (.leftOpen 0 3)).minus dbg
    (TineTree.fromRawInterval (.rightOpen (-3) (-1))) >>= (·.intervals dbg)) [.leftOpen 0 3] := by decide

-- src/test/tine_tree/minus.rs:171
example : ∀ dbg, SameSetOk ((TineTree.fromRawInterval (α := Int) (.leftOpen 0 3)).minus dbg
    (TineTree.fromRawInterval (.closed (-3) (-1))) >>= (·.intervals dbg)) [.leftOpen 0 3] := by decide

-- src/test/tine_tree/minus.rs:172
example : ∀ dbg, SameSetOk ((TineTree.fromRawInterval (α := Int) (.leftOpen 0 3)).minus dbg
    (TineTree.fromRawInterval (.upTo (-3))) >>= (·.intervals dbg)) [.leftOpen 0 3] := by decide

-- src/test/tine_tree/minus.rs:173
example : ∀ dbg, SameSetOk ((TineTree.fromRawInterval (α := Int) (.leftOpen 0 3)).minus dbg
    (TineTree.fromRawInterval (.upFrom (-3))) >>= (·.intervals dbg)) [] := by decide

-- src/test/tine_tree/minus.rs:174
example : ∀ dbg, SameSetOk ((TineTree.fromRawInterval (α := Int) (.leftOpen 0 3)).minus dbg
    (TineTree.fromRawInterval (.to (-3))) >>= (·.intervals dbg)) [.leftOpen 0 3] := by decide

-- src/test/tine_tree/minus.rs:175
example : ∀ dbg, SameSetOk ((TineTree.fromRawInterval (α := Int) (.leftOpen 0 3)).minus dbg
    (TineTree.fromRawInterval (.frm (-3))) >>= (·.intervals dbg)) [] := by decide

-- src/test/tine_tree/minus.rs:176
example : ∀ dbg, SameSetOk ((TineTree.fromRawInterval (α := Int) (.leftOpen 0 3)).minus dbg
    (TineTree.fromRawInterval .full) >>= (·.intervals dbg)) [] := by decide

-- src/test/tine_tree/minus.rs:183
example : ∀ dbg, SameSetOk ((TineTree.fromRawInterval (α := Int) (.leftOpen 0 3)).minus dbg
    (TineTree.fromRawInterval .empty) >>= (·.intervals dbg)) [.leftOpen 0 3] := by decide

-- src/test/tine_tree/minus.rs:184
example : ∀ dbg, SameSetOk ((TineTree.fromRawInterval (α := Int) (.leftOpen 0 3)).minus dbg
    (TineTree.fromRawInterval (.point 13)) >>= (·.intervals dbg)) [.leftOpen 0 3] := by decide

-- src/test/tine_tree/minus.rs:185
example : ∀ dbg, SameSetOk ((TineTree.fromRawInterval (α := Int) (.leftOpen 0 3)).minus dbg
    (TineTree.fromRawInterval (.opn 10 13)) >>= (·.intervals dbg)) [.leftOpen 0 3] := by decide

-- src/test/tine_tree/minus.rs:186
example : ∀ dbg, SameSetOk ((TineTree.fromRawInterval (α := Int) (.leftOpen 0 3)).minus dbg
    (TineTree.fromRawInterval (.leftOpen 10 13)) >>= (·.intervals dbg)) [.leftOpen 0 3] := by decide

-- src/test/tine_tree/minus.rs:187
example : ∀ dbg, SameSetOk ((TineTree.fromRawInterval (α := Int) (.leftOpen 0 3)).minus dbg
    (TineTree.fromRawInterval (.rightOpen 10 13)) >>= (·.intervals dbg)) [.leftOpen 0 3] := by decide

-- src/test/tine_tree/minus.rs:188
example : ∀ dbg, SameSetOk ((TineTree.fromRawInterval (α := Int) (.leftOpen 0 3)).minus dbg
    (TineTree.fromRawInterval (.closed 10 13)) >>= (·.intervals dbg)) [.leftOpen 0 3] := by decide

-- src/test/tine_tree/minus.rs:189
example : ∀ dbg, SameSetOk ((TineTree.fromRawInterval (α := Int) (.leftOpen 0 3)).minus dbg
    (TineTree.fromRawInterval (.upTo 13)) >>= (·.intervals dbg)) [] := by decide

-- src/test/tine_tree/minus.rs:190
example : ∀ dbg, SameSetOk ((TineTree.fromRawInterval (α := Int) (.leftOpen 0 3)).minus dbg
    (TineTree.fromRawInterval (.upFrom 13)) >>= (·.intervals dbg)) [.leftOpen 0 3] := by decide

-- src/test/tine_tree/minus.rs:191
example : ∀ dbg, SameSetOk ((TineTree.fromRawInterval (α := Int) (.leftOpen 0 3)).minus dbg
    (TineTree.fromRawInterval (.to 13)) >>= (·.intervals dbg)) [] := by decide

-- src/test/tine_tree/minus.rs:192
example : ∀ dbg, SameSetOk ((TineTree.fromRawInterval (α := Int) (.leftOpen 0 3)).minus dbg
    (TineTree.fromRawInterval (.frm 13)) >>= (·.intervals dbg)) [.leftOpen 0 3] := by decide

-- src/test/tine_tree/minus.rs:193
example : ∀ dbg, SameSetOk ((TineTree.fromRawInterval (α := Int) (.leftOpen 0 3)).minus dbg
    (TineTree.fromRawInterval .full) >>= (·.intervals dbg)) [] := by decide

-- src/test/tine_tree/minus.rs:200
example : ∀ dbg, SameSetOk ((TineTree.fromRawInterval (α := Int) (.rightOpen 0 3)).minus dbg
    (TineTree.fromRawInterval .empty) >>= (·.intervals dbg)) [.rightOpen 0 3] := by decide

-- src/test/tine_tree/minus.rs:201
example : ∀ dbg, SameSetOk ((TineTree.fromRawInterval (α := Int) (.rightOpen 0 3)).minus dbg
    (TineTree.fromRawInterval (.point 2)) >>= (·.intervals dbg)) [.rightOpen 0 2, .opn 2 3] := by decide

-- src/test/tine_tree/minus.rs:202
example : ∀ dbg, SameSetOk ((TineTree.fromRawInterval (α := Int) (.rightOpen 0 3)).minus dbg
    (TineTree.fromRawInterval (.opn 0 3)) >>= (·.intervals dbg)) [.point 0] := by decide

-- src/test/tine_tree/minus.rs:203
example : ∀ dbg, SameSetOk ((TineTree.fromRawInterval (α := Int) (.rightOpen 0 3)).minus dbg
    (TineTree.fromRawInterval (.leftOpen 0 3)) >>= (·.intervals dbg)) [.point 0] := by decide

-- src/test/tine_tree/minus.rs:204
example : ∀ dbg, SameSetOk ((TineTree.fromRawInterval (α := Int) (.rightOpen 0 3)).minus dbg
    (TineTree.fromRawInterval (.rightOpen 0 3)) >>= (·.intervals dbg)) [] := by decide

-- src/test/tine_tree/minus.rs:205
example : ∀ dbg, SameSetOk ((TineTree.fromRawInterval (α := Int) (.rightOpen 0 3)).minus dbg
    (TineTree.fromRawInterval (.closed 0 3)) >>= (·.intervals dbg)) [] := by decide

-- src/test/tine_tree/minus.rs:206
example : ∀ dbg, SameSetOk ((TineTree.fromRawInterval (α := Int) (.rightOpen 0 3)).minus dbg
    (TineTree.fromRawInterval (.upTo 2)) >>= (·.intervals dbg)) [.rightOpen 2 3] := by decide

-- src/test/tine_tree/minus.rs:207
example : ∀ dbg, SameSetOk ((TineTree.fromRawInterval (α := Int) (.rightOpen 0 3)).minus dbg
    (TineTree.fromRawInterval (.upFrom 2)) >>= (·.intervals dbg)) [.closed 0 2] := by decide

-- src/test/tine_tree/minus.rs:208
example : ∀ dbg, SameSetOk ((TineTree.fromRawInterval (α := Int) (.rightOpen 0 3)).minus dbg
    (TineTree.fromRawInterval (.to 2)) >>= (·.intervals dbg)) [.opn 2 3] := by decide

-- src/test/tine_tree/minus.rs:209
example : ∀ dbg, SameSetOk ((TineTree.fromRawInterval (α := Int) (.rightOpen 0 3)).minus dbg
    (TineTree.fromRawInterval (.frm 2)) >>= (·.intervals dbg)) [.rightOpen 0 2] := by decide

-- src/test/tine_tree/minus.rs:210
example : ∀ dbg, SameSetOk ((TineTree.fromRawInterval (α := Int) (.rightOpen 0 3)).minus dbg
    (TineTree.fromRawInterval .full) >>= (·.intervals dbg)) [] := by decide

-- src/test/tine_tree/minus.rs:217
example : ∀ dbg, SameSetOk ((TineTree.fromRawInterval (α := Int) (.rightOpen 0 3)).minus dbg
    (TineTree.fromRawInterval .empty) >>= (·.intervals dbg)) [.rightOpen 0 3] := by decide

-- src/test/tine_tree/minus.rs:218
example : ∀ dbg, SameSetOk ((TineTree.fromRawInterval (α := Int) (.rightOpen 0 3)).minus dbg
    (TineTree.fromRawInterval (.point (-3))) >>= (·.intervals dbg)) [.rightOpen 0 3] := by decide

-- src/test/tine_tree/minus.rs:219
example : ∀ dbg, SameSetOk ((TineTree.fromRawInterval (α := Int) (.rightOpen 0 3)).minus dbg
    (TineTree.fromRawInterval (.opn (-3) (-1))) >>= (·.intervals dbg)) [.rightOpen 0 3] := by decide

-- src/test/tine_tree/minus.rs:220
example : ∀ dbg, SameSetOk ((TineTree.fromRawInterval (α := Int) (.rightOpen 0 3)).minus dbg
    (TineTree.fromRawInterval (.leftOpen (-3) (-1))) >>= (·.intervals dbg)) [.rightOpen 0 3] := by decide

-- src/test/tine_tree/minus.rs:221
example : ∀ dbg, SameSetOk ((TineTree.fromRawInterval (α := Int) (.rightOpen 0 3)).minus dbg
    (TineTree.fromRawInterval (.rightOpen (-3) (-1))) >>= (·.intervals dbg)) [.rightOpen 0 3] := by decide

-- src/test/tine_tree/minus.rs:222
example : ∀ dbg, SameSetOk ((TineTree.fromRawInterval (α := Int) (.rightOpen 0 3)).minus dbg
    (TineTree.fromRawInterval (.closed (-3) (-1))) >>= (·.intervals dbg)) [.rightOpen 0 3] := by decide

-- src/test/tine_tree/minus.rs:223
example : ∀ dbg, SameSetOk ((TineTree.fromRawInterval (α := Int) (.rightOpen 0 3)).minus dbg
    (TineTree.fromRawInterval (.upTo (-3))) >>= (·.intervals dbg)) [.rightOpen 0 3] := by decide

-- src/test/tine_tree/minus.rs:224
example : ∀ dbg, SameSetOk ((TineTree.fromRawInterval (α := Int) (.rightOpen 0 3)).minus dbg
    (TineTree.fromRawInterval (.upFrom (-3))) >>= (·.intervals dbg)) [] := by decide

-- src/test/tine_tree/minus.rs:225
example : ∀ dbg, SameSetOk ((TineTree.fromRawInterval (α := Int) (.rightOpen 0 3)).minus dbg
    (TineTree.fromRawInterval (.to (-3))) >>= (·.intervals dbg)) [.rightOpen 0 3] := by decide

-- src/test/tine_tree/minus.rs:226
example : ∀ dbg, SameSetOk ((TineTree.fromRawInterval (α := Int) (.rightOpen 0 3)).minus dbg
    (TineTree.fromRawInterval (.frm (-3))) >>= (·.intervals dbg)) [] := by decide

-- src/test/tine_tree/minus.rs:227
example : ∀ dbg, SameSetOk ((TineTree.fromRawInterval (α := Int) (.rightOpen 0 3)).minus dbg
    (TineTree.fromRawInterval .full) >>= (·.intervals dbg)) [] := by decide

-- src/test/tine_tree/minus.rs:234
example : ∀ dbg, SameSetOk ((TineTree.fromRawInterval (α := Int) (.rightOpen 0 3)).minus dbg
    (TineTree.fromRawInterval .empty) >>= (·.intervals dbg)) [.rightOpen 0 3] := by decide

-- src/test/tine_tree/minus.rs:235
example : ∀ dbg, SameSetOk ((TineTree.fromRawInterval (α := Int) (.rightOpen 0 3)).minus dbg
    (TineTree.fromRawInterval (.point 13)) >>= (·.intervals dbg)) [.rightOpen 0 3] := by decide

-- src/test/tine_tree/minus.rs:236
example : ∀ dbg, SameSetOk ((TineTree.fromRawInterval (α := Int) (.rightOpen 0 3)).minus dbg
    (TineTree.fromRawInterval (.opn 10 13)) >>= (·.intervals dbg)) [.rightOpen 0 3] := by decide

-- src/test/tine_tree/minus.rs:237
example : ∀ dbg, SameSetOk ((TineTree.fromRawInterval (α := Int) (.rightOpen 0 3)).minus dbg
    (TineTree.fromRawInterval (.leftOpen 10 13)) >>= (·.intervals dbg)) [.rightOpen 0 3] := by decide

-- src/test/tine_tree/minus.rs:238
example : ∀ dbg, SameSetOk ((TineTree.fromRawInterval (α := Int) (.rightOpen 0 3)).minus dbg
    (TineTree.fromRawInterval (.rightOpen 10 13)) >>= (·.intervals dbg)) [.rightOpen 0 3] := by decide

-- src/test/tine_tree/minus.rs:239
example : ∀ dbg, SameSetOk ((TineTree.fromRawInterval (α := Int) (.rightOpen 0 3)).minus dbg
    (TineTree.fromRawInterval (.closed 10 13)) >>= (·.intervals dbg)) [.rightOpen 0 3] := by decide

-- src/test/tine_tree/minus.rs:240
example : ∀ dbg, SameSetOk ((TineTree.fromRawInterval (α := Int) (.rightOpen 0 3)).minus dbg
    (TineTree.fromRawInterval (.upTo 13)) >>= (·.intervals dbg)) [] := by decide

-- src/test/tine_tree/minus.rs:241
example : ∀ dbg, SameSetOk ((TineTree.fromRawInterval (α := Int) (.rightOpen 0 3)).minus dbg
    (TineTree.fromRawInterval (.upFrom 13)) >>= (·.intervals dbg)) [.rightOpen 0 3] := by decide

-- src/test/tine_tree/minus.rs:242
example : ∀ dbg, SameSetOk ((TineTree.fromRawInterval (α := Int) (.rightOpen 0 3)).minus dbg
    (TineTree.fromRawInterval (.to 13)) >>= (·.intervals dbg)) [] := by decide

-- src/test/tine_tree/minus.rs:243
example : ∀ dbg, SameSetOk ((TineTree.fromRawInterval (α := Int) (.rightOpen 0 3)).minus dbg
    (TineTree.fromRawInterval (.frm 13)) >>= (·.intervals dbg)) [.rightOpen 0 3] := by decide

-- src/test/tine_tree/minus.rs:244
example : ∀ dbg, SameSetOk ((TineTree.fromRawInterval (α := Int) (.rightOpen 0 3)).minus dbg
    (TineTree.fromRawInterval .full) >>= (·.intervals dbg)) [] := by decide

-- src/test/tine_tree/minus.rs:251
example : ∀ dbg, SameSetOk ((TineTree.fromRawInterval (α := Int) (.closed 0 3)).minus dbg
    (TineTree.fromRawInterval .empty) >>= (·.intervals dbg)) [.closed 0 3] := by decide

-- src/test/tine_tree/minus.rs:252
example : ∀ dbg, SameSetOk ((TineTree.fromRawInterval (α := Int) (.closed 0 3)).minus dbg
    (TineTree.fromRawInterval (.point 2)) >>= (·.intervals dbg)) [.rightOpen 0 2, .leftOpen 2 3] := by decide

-- src/test/tine_tree/minus.rs:253
example : ∀ dbg, SameSetOk ((TineTree.fromRawInterval (α := Int) (.closed 0 3)).minus dbg
    (TineTree.fromRawInterval (.opn 0 3)) >>= (·.intervals dbg)) [.point 0, .point 3] := by decide

-- src/test/tine_tree/minus.rs:254
example : ∀ dbg, SameSetOk ((TineTree.fromRawInterval (α := Int) (.closed 0 3)).minus dbg
    (TineTree.fromRawInterval (.leftOpen 0 3)) >>= (·.intervals dbg)) [.point 0] := by decide

-- src/test/tine_tree/minus.rs:255
example : ∀ dbg, SameSetOk ((TineTree.fromRawInterval (α := Int) (.closed 0 3)).minus dbg
    (TineTree.fromRawInterval (.rightOpen 0 3)) >>= (·.intervals dbg)) [.point 3] := by decide

-- src/test/tine_tree/minus.rs:256
example : ∀ dbg, SameSetOk ((TineTree.fromRawInterval (α := Int) (.closed 0 3)).minus dbg
    (TineTree.fromRawInterval (.closed 0 3)) >>= (·.intervals dbg)) [] := by decide

-- src/test/tine_tree/minus.rs:257
example : ∀ dbg, SameSetOk ((TineTree.fromRawInterval (α := Int) (.closed 0 3)).minus dbg
    (TineTree.fromRawInterval (.upTo 2)) >>= (·.intervals dbg)) [.closed 2 3] := by decide

-- src/test/tine_tree/minus.rs:258
example : ∀ dbg, SameSetOk ((TineTree.fromRawInterval (α := Int) (.closed 0 3)).minus dbg
    (TineTree.fromRawInterval (.upFrom 2)) >>= (·.intervals dbg)) [.closed 0 2] := by decide

-- src/test/tine_tree/minus.rs:259
example : ∀ dbg, SameSetOk ((TineTree.fromRawInterval (α := Int) (.closed 0 3)).minus dbg
    (TineTree.fromRawInterval (.to 2)) >>= (·.intervals dbg)) [.leftOpen 2 3] := by decide

-- src/test/tine_tree/minus.rs:260
example : ∀ dbg, SameSetOk ((TineTree.fromRawInterval (α := Int) (.closed 0 3)).minus dbg
    (TineTree.fromRawInterval (.frm 2)) >>= (·.intervals dbg)) [.rightOpen 0 2] := by decide

-- src/test/tine_tree/minus.rs:261
example : ∀ dbg, SameSetOk ((TineTree.fromRawInterval (α := Int) (.closed 0 3)).minus dbg
    (TineTree.fromRawInterval .full) >>= (·.intervals dbg)) [] := by decide

-- src/test/tine_tree/minus.rs:268
example : ∀ dbg, SameSetOk ((TineTree.fromRawInterval (α := Int) (.closed 0 3)).minus dbg
    (TineTree.fromRawInterval .empty) >>= (·.intervals dbg)) [.closed 0 3] := by decide

-- src/test/tine_tree/minus.rs:269
example : ∀ dbg, SameSetOk ((TineTree.fromRawInterval (α := Int) (.closed 0 3)).minus dbg
    (TineTree.fromRawInterval (.point (-3))) >>= (·.intervals dbg)) [.closed 0 3] := by decide

-- src/test/tine_tree/minus.rs:270
example : ∀ dbg, SameSetOk ((TineTree.fromRawInterval (α := Int) (.closed 0 3)).minus dbg
    (TineTree.fromRawInterval (.opn (-3) (-1))) >>= (·.intervals dbg)) [.closed 0 3] := by decide

-- src/test/tine_tree/minus.rs:271
example : ∀ dbg, SameSetOk ((TineTree.fromRawInterval (α := Int) (.closed 0 3)).minus dbg
    (TineTree.fromRawInterval (.leftOpen (-3) (-1))) >>= (·.intervals dbg)) [.closed 0 3] := by decide

-- src/test/tine_tree/minus.rs:272
example : ∀ dbg, SameSetOk ((TineTree.fromRawInterval (α := Int) (.closed 0 3)).minus dbg
    (TineTree.fromRawInterval (.rightOpen (-3) (-1))) >>= (·.intervals dbg)) [.closed 0 3] := by decide

-- src/test/tine_tree/minus.rs:273
example : ∀ dbg, SameSetOk ((TineTree.fromRawInterval (α := Int) (.closed 0 3)).minus dbg
    (TineTree.fromRawInterval (.closed (-3) (-1))) >>= (·.intervals dbg)) [.closed 0 3] := by decide

-- src/test/tine_tree/minus.rs:274
example : ∀ dbg, SameSetOk ((TineTree.fromRawInterval (α := Int) (.closed 0 3)).minus dbg
    (TineTree.fromRawInterval (.upTo (-3))) >>= (·.intervals dbg)) [.closed 0 3] := by decide

-- src/test/tine_tree/minus.rs:275
example : ∀ dbg, SameSetOk ((TineTree.fromRawInterval (α := Int) (.closed 0 3)).minus dbg
    (TineTree.fromRawInterval (.upFrom (-3))) >>= (·.intervals dbg)) [] := by decide

-- src/test/tine_tree/minus.rs:276
example : ∀ dbg, SameSetOk ((TineTree.fromRawInterval (α := Int) (.closed 0 3)).minus dbg
    (TineTree.fromRawInterval (.to (-3))) >>= (·.intervals dbg)) [.closed 0 3] := by decide

-- src/test/tine_tree/minus.rs:277
example : ∀ dbg, SameSetOk ((TineTree.fromRawInterval (α := Int) (.closed 0 3)).minus dbg
    (TineTree.fromRawInterval (.frm (-3))) >>= (·.intervals dbg)) [] := by decide

-- src/test/tine_tree/minus.rs:278
example : ∀ dbg, SameSetOk ((TineTree.fromRawInterval (α := Int) (.closed 0 3)).minus dbg
    (TineTree.fromRawInterval .full) >>= (·.intervals dbg)) [] := by decide

-- src/test/tine_tree/minus.rs:285
example : ∀ dbg, SameSetOk ((TineTree.fromRawInterval (α := Int) (.closed 0 3)).minus dbg
    (TineTree.fromRawInterval .empty) >>= (·.intervals dbg)) [.closed 0 3] := by decide

-- src/test/tine_tree/minus.rs:286
example : ∀ dbg, SameSetOk ((TineTree.fromRawInterval (α := Int) (.closed 0 3)).minus dbg
    (TineTree.fromRawInterval (.point 13)) >>= (·.intervals dbg)) [.closed 0 3] := by decide

-- src/test/tine_tree/minus.rs:287
example : ∀ dbg, SameSetOk ((TineTree.fromRawInterval (α := Int) (.closed 0 3)).minus dbg
    (TineTree.fromRawInterval (.opn 10 13)) >>= (·.intervals dbg)) [.closed 0 3] := by decide

-- src/test/tine_tree/minus.rs:288
example : ∀ dbg, SameSetOk ((TineTree.fromRawInterval (α := Int) (.closed 0 3)).minus dbg
    (TineTree.fromRawInterval (.leftOpen 10 13)) >>= (·.intervals dbg)) [.closed 0 3] := by decide

-- src/test/tine_tree/minus.rs:289
example : ∀ dbg, SameSetOk ((TineTree.fromRawInterval (α := Int) (.closed 0 3)).minus dbg
    (TineTree.fromRawInterval (.rightOpen 10 13)) >>= (·.intervals dbg)) [.closed 0 3] := by decide

-- src/test/tine_tree/minus.rs:290
example : ∀ dbg, SameSetOk ((TineTree.fromRawInterval (α := Int) (.closed 0 3)).minus dbg
    (TineTree.fromRawInterval (.closed 10 13)) >>= (·.intervals dbg)) [.closed 0 3] := by decide

-- src/test/tine_tree/minus.rs:291
example : ∀ dbg, SameSetOk ((TineTree.fromRawInterval (α := Int) (.closed 0 3)).minus dbg
    (TineTree.fromRawInterval (.upTo 13)) >>= (·.intervals dbg)) [] := by decide

-- src/test/tine_tree/minus.rs:292
example : ∀ dbg, SameSetOk ((TineTree.fromRawInterval (α := Int) (.closed 0 3)).minus dbg
    (TineTree.fromRawInterval (.upFrom 13)) >>= (·.intervals dbg)) [.closed 0 3] := by decide

-- src/test/tine_tree/minus.rs:293
example : ∀ dbg, SameSetOk ((TineTree.fromRawInterval (α := Int) (.closed 0 3)).minus dbg
    (TineTree.fromRawInterval (.to 13)) >>= (·.intervals dbg)) [] := by decide

-- src/test/tine_tree/minus.rs:294
example : ∀ dbg, SameSetOk ((TineTree.fromRawInterval (α := Int) (.closed 0 3)).minus dbg
    (TineTree.fromRawInterval (.frm 13)) >>= (·.intervals dbg)) [.closed 0 3] := by decide

-- src/test/tine_tree/minus.rs:295
example : ∀ dbg, SameSetOk ((TineTree.fromRawInterval (α := Int) (.closed 0 3)).minus dbg
    (TineTree.fromRawInterval .full) >>= (·.intervals dbg)) [] := by decide

-- src/test/tine_tree/minus.rs:302
example : ∀ dbg, SameSetOk ((TineTree.fromRawInterval (α := Int) (.upTo 3)).minus dbg
    (TineTree.fromRawInterval .empty) >>= (·.intervals dbg)) [.upTo 3] := by decide

-- src/test/tine_tree/minus.rs:303
example : ∀ dbg, SameSetOk ((TineTree.fromRawInterval (α := Int) (.upTo 3)).minus dbg
    (TineTree.fromRawInterval (.point 2)) >>= (·.intervals dbg)) [.upTo 2, .opn 2 3] := by decide

-- src/test/tine_tree/minus.rs:304
example : ∀ dbg, SameSetOk ((TineTree.fromRawInterval (α := Int) (.upTo 3)).minus dbg
    (TineTree.fromRawInterval (.opn 0 3)) >>= (·.intervals dbg)) [.to 0] := by decide

-- src/test/tine_tree/minus.rs:305
example : ∀ dbg, SameSetOk ((TineTree.fromRawInterval (α := Int) (.upTo 3)).minus dbg
    (TineTree.fromRawInterval (.leftOpen 0 3)) >>= (·.intervals dbg)) [.to 0] := by decide

-- src/test/tine_tree/minus.rs:306
example : ∀ dbg, SameSetOk ((TineTree.fromRawInterval (α := Int) (.upTo 3)).minus dbg
    (TineTree.fromRawInterval (.rightOpen 0 3)) >>= (·.intervals dbg)) [.upTo 0] := by decide

-- src/test/tine_tree/minus.rs:307
example : ∀ dbg, SameSetOk ((TineTree.fromRawInterval (α := Int) (.upTo 3)).minus dbg
    (TineTree.fromRawInterval (.closed 0 3)) >>= (·.intervals dbg)) [.upTo 0] := by decide

-- src/test/tine_tree/minus.rs:308
example : ∀ dbg, SameSetOk ((TineTree.fromRawInterval (α := Int) (.upTo 3)).minus dbg
    (TineTree.fromRawInterval (.upTo 2)) >>= (·.intervals dbg)) [.rightOpen 2 3] := by decide

-- src/test/tine_tree/minus.rs:309
example : ∀ dbg, SameSetOk ((TineTree.fromRawInterval (α := Int) (.upTo 3)).minus dbg
    (TineTree.fromRawInterval (.upFrom 2)) >>= (·.intervals dbg)) [.to 2] := by decide

-- src/test/tine_tree/minus.rs:310
example : ∀ dbg, SameSetOk ((TineTree.fromRawInterval (α := Int) (.upTo 3)).minus dbg
    (TineTree.fromRawInterval (.to 2)) >>= (·.intervals dbg)) [.opn 2 3] := by decide

-- src/test/tine_tree/minus.rs:311
example : ∀ dbg, SameSetOk ((TineTree.fromRawInterval (α := Int) (.upTo 3)).minus dbg
    (TineTree.fromRawInterval (.frm 2)) >>= (·.intervals dbg)) [.upTo 2] := by decide

-- src/test/tine_tree/minus.rs:312
example : ∀ dbg, SameSetOk ((TineTree.fromRawInterval (α := Int) (.upTo 3)).minus dbg
    (TineTree.fromRawInterval .full) >>= (·.intervals dbg)) [] := by decide

-- src/test/tine_tree/minus.rs:319
example : ∀ dbg, SameSetOk ((TineTree.fromRawInterval (α := Int) (.upTo 3)).minus dbg
    (TineTree.fromRawInterval .empty) >>= (·.intervals dbg)) [.upTo 3] := by decide

-- src/test/tine_tree/minus.rs:320
example : ∀ dbg, SameSetOk ((TineTree.fromRawInterval (α := Int) (.upTo 3)).minus dbg
    (TineTree.fromRawInterval (.point (-3))) >>= (·.intervals dbg)) [.upTo (-3), .opn (-3) 3] := by decide

-- src/test/tine_tree/minus.rs:321
example : ∀ dbg, SameSetOk ((TineTree.fromRawInterval (α := Int) (.upTo 3)).minus dbg
    (TineTree.fromRawInterval (.opn (-3) (-1))) >>= (·.intervals dbg)) [.to (-3), .rightOpen (-1) 3] := by decide

-- src/test/tine_tree/minus.rs:322
example : ∀ dbg, SameSetOk ((TineTree.fromRawInterval (α := Int) (.upTo 3)).minus dbg
    (TineTree.fromRawInterval (.leftOpen (-3) (-1))) >>= (·.intervals dbg)) [.to (-3), .opn (-1) 3] := by decide

-- src/test/tine_tree/minus.rs:323
example : ∀ dbg, SameSetOk ((TineTree.fromRawInterval (α := Int) (.upTo 3)).minus dbg
    (TineTree.fromRawInterval (.rightOpen (-3) (-1))) >>= (·.intervals dbg)) [.upTo (-3), .rightOpen (-1) 3] := by decide

-- src/test/tine_tree/minus.rs:324
example : ∀ dbg, SameSetOk ((TineTree.fromRawInterval (α := Int) (.upTo 3)).minus dbg
    (TineTree.fromRawInterval (.closed (-3) (-1))) >>= (·.intervals dbg)) [.upTo (-3), .opn (-1) 3] := by decide

-- src/test/tine_tree/minus.rs:325
example : ∀ dbg, SameSetOk ((TineTree.fromRawInterval (α := Int) (.upTo 3)).minus dbg
    (TineTree.fromRawInterval (.upTo (-3))) >>= (·.intervals dbg)) [.rightOpen (-3) 3] := by decide

-- src/test/tine_tree/minus.rs:326
example : ∀ dbg, SameSetOk ((TineTree.fromRawInterval (α := Int) (.upTo 3)).minus dbg
    (TineTree.fromRawInterval (.upFrom (-3))) >>= (·.intervals dbg)) [.to (-3)] := by decide

-- src/test/tine_tree/minus.rs:327
example : ∀ dbg, SameSetOk ((TineTree.fromRawInterval (α := Int) (.upTo 3)).minus dbg
    (TineTree.fromRawInterval (.to (-3))) >>= (·.intervals dbg)) [.opn (-3) 3] := by decide

-- src/test/tine_tree/minus.rs:328
example : ∀ dbg, SameSetOk ((TineTree.fromRawInterval (α := Int) (.upTo 3)).minus dbg
    (TineTree.fromRawInterval (.frm (-3))) >>= (·.intervals dbg)) [.upTo (-3)] := by decide

-- src/test/tine_tree/minus.rs:329
example : ∀ dbg, SameSetOk ((TineTree.fromRawInterval (α := Int) (.upTo 3)).minus dbg
    (TineTree.fromRawInterval .full) >>= (·.intervals dbg)) [] := by decide

-- src/test/tine_tree/minus.rs:336
example : ∀ dbg, SameSetOk ((TineTree.fromRawInterval (α := Int) (.upTo 3)).minus dbg
    (TineTree.fromRawInterval .empty) >>= (·.intervals dbg)) [.upTo 3] := by decide

-- src/test/tine_tree/minus.rs:337
example : ∀ dbg, SameSetOk ((TineTree.fromRawInterval (α := Int) (.upTo 3)).minus dbg
    (TineTree.fromRawInterval (.point 13)) >>= (·.intervals dbg)) [.upTo 3] := by decide

-- src/test/tine_tree/minus.rs:338
example : ∀ dbg, SameSetOk ((TineTree.fromRawInterval (α := Int) (.upTo 3)).minus dbg
    (TineTree.fromRawInterval (.opn 10 13)) >>= (·.intervals dbg)) [.upTo 3] := by decide

-- src/test/tine_tree/minus.rs:339
example : ∀ dbg, SameSetOk ((TineTree.fromRawInterval (α := Int) (.upTo 3)).minus dbg
    (TineTree.fromRawInterval (.leftOpen 10 13)) >>= (·.intervals dbg)) [.upTo 3] := by decide

-- src/test/tine_tree/minus.rs:340
example : ∀ dbg, SameSetOk ((TineTree.fromRawInterval (α := Int) (.upTo 3)).minus dbg
    (TineTree.fromRawInterval (.rightOpen 10 13)) >>= (·.intervals dbg)) [.upTo 3] := by decide

-- src/test/tine_tree/minus.rs:341
example : ∀ dbg, SameSetOk ((TineTree.fromRawInterval (α := Int) (.upTo 3)).minus dbg
    (TineTree.fromRawInterval (.closed 10 13)) >>= (·.intervals dbg)) [.upTo 3] := by decide

-- src/test/tine_tree/minus.rs:342
example : ∀ dbg, SameSetOk ((TineTree.fromRawInterval (α := Int) (.upTo 3)).minus dbg
    (TineTree.fromRawInterval (.upTo 13)) >>= (·.intervals dbg)) [] := by decide

-- src/test/tine_tree/minus.rs:343
example : ∀ dbg, SameSetOk ((TineTree.fromRawInterval (α := Int) (.upTo 3)).minus dbg
    (TineTree.fromRawInterval (.upFrom 13)) >>= (·.intervals dbg)) [.upTo 3] := by decide

-- src/test/tine_tree/minus.rs:344
example : ∀ dbg, SameSetOk ((TineTree.fromRawInterval (α := Int) (.upTo 3)).minus dbg
    (TineTree.fromRawInterval (.to 13)) >>= (·.intervals dbg)) [] := by decide

-- src/test/tine_tree/minus.rs:345
example : ∀ dbg, SameSetOk ((TineTree.fromRawInterval (α := Int) (.upTo 3)).minus dbg
    (TineTree.fromRawInterval (.frm 13)) >>= (·.intervals dbg)) [.upTo 3] := by decide

-- src/test/tine_tree/minus.rs:346
example : ∀ dbg, SameSetOk ((TineTree.fromRawInterval (α := Int) (.upTo 3)).minus dbg
    (TineTree.fromRawInterval .full) >>= (·.intervals dbg)) [] := by decide

-- src/test/tine_tree/minus.rs:353
example : ∀ dbg, SameSetOk ((TineTree.fromRawInterval (α := Int) (.upFrom 0)).minus dbg
    (TineTree.fromRawInterval .empty) >>= (·.intervals dbg)) [.upFrom 0] := by decide

-- src/test/tine_tree/minus.rs:354
example : ∀ dbg, SameSetOk ((TineTree.fromRawInterval (α := Int) (.upFrom 0)).minus dbg
    (TineTree.fromRawInterval (.point 2)) >>= (·.intervals dbg)) [.opn 0 2, .upFrom 2] := by decide

-- src/test/tine_tree/minus.rs:355
example : ∀ dbg, SameSetOk ((TineTree.fromRawInterval (α := Int) (.upFrom 0)).minus dbg
    (TineTree.fromRawInterval (.opn 0 3)) >>= (·.intervals dbg)) [.frm 3] := by decide

-- src/test/tine_tree/minus.rs:356
example : ∀ dbg, SameSetOk ((TineTree.fromRawInterval (α := Int) (.upFrom 0)).minus dbg
    (TineTree.fromRawInterval (.leftOpen 0 3)) >>= (·.intervals dbg)) [.upFrom 3] := by decide

-- src/test/tine_tree/minus.rs:357
example : ∀ dbg, SameSetOk ((TineTree.fromRawInterval (α := Int) (.upFrom 0)).minus dbg
    (TineTree.fromRawInterval (.rightOpen 0 3)) >>= (·.intervals dbg)) [.frm 3] := by decide

-- src/test/tine_tree/minus.rs:358
example : ∀ dbg, SameSetOk ((TineTree.fromRawInterval (α := Int) (.upFrom 0)).minus dbg
    (TineTree.fromRawInterval (.closed 0 3)) >>= (·.intervals dbg)) [.upFrom 3] := by decide

-- src/test/tine_tree/minus.rs:359
example : ∀ dbg, SameSetOk ((TineTree.fromRawInterval (α := Int) (.upFrom 0)).minus dbg
    (TineTree.fromRawInterval (.upTo 2)) >>= (·.intervals dbg)) [.frm 2] := by decide

-- src/test/tine_tree/minus.rs:360
example : ∀ dbg, SameSetOk ((TineTree.fromRawInterval (α := Int) (.upFrom 0)).minus dbg
    (TineTree.fromRawInterval (.upFrom 2)) >>= (·.intervals dbg)) [.leftOpen 0 2] := by decide

-- src/test/tine_tree/minus.rs:361
example : ∀ dbg, SameSetOk ((TineTree.fromRawInterval (α := Int) (.upFrom 0)).minus dbg
    (TineTree.fromRawInterval (.to 2)) >>= (·.intervals dbg)) [.upFrom 2] := by decide

-- src/test/tine_tree/minus.rs:362
example : ∀ dbg, SameSetOk ((TineTree.fromRawInterval (α := Int) (.upFrom 0)).minus dbg
    (TineTree.fromRawInterval (.frm 2)) >>= (·.intervals dbg)) [.opn 0 2] := by decide

-- src/test/tine_tree/minus.rs:363
example : ∀ dbg, SameSetOk ((TineTree.fromRawInterval (α := Int) (.upFrom 0)).minus dbg
    (TineTree.fromRawInterval .full) >>= (·.intervals dbg)) [] := by decide

-- src/test/tine_tree/minus.rs:370
example : ∀ dbg, SameSetOk ((TineTree.fromRawInterval (α := Int) (.upFrom 0)).minus dbg
    (TineTree.fromRawInterval .empty) >>= (·.intervals dbg)) [.upFrom 0] := by decide

-- src/test/tine_tree/minus.rs:371
example : ∀ dbg, SameSetOk ((TineTree.fromRawInterval (α := Int) (.upFrom 0)).minus dbg
    (TineTree.fromRawInterval (.point (-3))) >>= (·.intervals dbg)) [.upFrom 0] := by decide

-- src/test/tine_tree/minus.rs:372
example : ∀ dbg, SameSetOk ((TineTree.fromRawInterval (α := Int) (.upFrom 0)).minus dbg
    (TineTree.fromRawInterval (.opn (-3) (-1))) >>= (·.intervals dbg)) [.upFrom 0] := by decide

-- src/test/tine_tree/minus.rs:373
example : ∀ dbg, SameSetOk ((TineTree.fromRawInterval (α := Int) (.upFrom 0)).minus dbg
    (TineTree.fromRawInterval (.leftOpen (-3) (-1))) >>= (·.intervals dbg)) [.upFrom 0] := by decide

-- src/test/tine_tree/minus.rs:374
example : ∀ dbg, SameSetOk ((TineTree.fromRawInterval (α := Int) (.upFrom 0)).minus dbg
    (TineTree.fromRawInterval (.rightOpen (-3) (-1))) >>= (·.intervals dbg)) [.upFrom 0] := by decide

-- src/test/tine_tree/minus.rs:375
example : ∀ dbg, SameSetOk ((TineTree.fromRawInterval (α := Int) (.upFrom 0)).minus dbg
    (TineTree.fromRawInterval (.closed (-3) (-1))) >>= (·.intervals dbg)) [.upFrom 0] := by decide

-- src/test/tine_tree/minus.rs:376
example : ∀ dbg, SameSetOk ((TineTree.fromRawInterval (α := Int) (.upFrom 0)).minus dbg
    (TineTree.fromRawInterval (.upTo (-3))) >>= (·.intervals dbg)) [.upFrom 0] := by decide

-- src/test/tine_tree/minus.rs:377
example : ∀ dbg, SameSetOk ((TineTree.fromRawInterval (α := Int) (.upFrom 0)).minus dbg
    (TineTree.fromRawInterval (.upFrom (-3))) >>= (·.intervals dbg)) [] := by decide

-- src/test/tine_tree/minus.rs:378
example : ∀ dbg, SameSetOk ((TineTree.fromRawInterval (α := Int) (.upFrom 0)).minus dbg
    (TineTree.fromRawInterval (.to (-3))) >>= (·.intervals dbg)) [.upFrom 0] := by decide

-- src/test/tine_tree/minus.rs:379
example : ∀ dbg, SameSetOk ((TineTree.fromRawInterval (α := Int) (.upFrom 0)).minus dbg
    (TineTree.fromRawInterval (.frm (-3))) >>= (·.intervals dbg)) [] := by decide

-- src/test/tine_tree/minus.rs:380
example : ∀ dbg, SameSetOk ((TineTree.fromRawInterval (α := Int) (.upFrom 0)).minus dbg
    (TineTree.fromRawInterval .full) >>= (·.intervals dbg)) [] := by decide

-- src/test/tine_tree/minus.rs:387
example : ∀ dbg, SameSetOk ((TineTree.fromRawInterval (α := Int) (.upFrom 0)).minus dbg
    (TineTree.fromRawInterval .empty) >>= (·.intervals dbg)) [.upFrom 0] := by decide

-- src/test/tine_tree/minus.rs:388
example : ∀ dbg, SameSetOk ((TineTree.fromRawInterval (α := Int) (.upFrom 0)).minus dbg
    (TineTree.fromRawInterval (.point 13)) >>= (·.intervals dbg)) [.opn 0 13, .upFrom 13] := by decide

-- src/test/tine_tree/minus.rs:389
example : ∀ dbg, SameSetOk ((TineTree.fromRawInterval (α := Int) (.upFrom 0)).minus dbg
    (TineTree.fromRawInterval (.opn 10 13)) >>= (·.intervals dbg)) [.leftOpen 0 10, .frm 13] := by decide

-- src/test/tine_tree/minus.rs:390
example : ∀ dbg, SameSetOk ((TineTree.fromRawInterval (α := Int) (.upFrom 0)).minus dbg
    (TineTree.fromRawInterval (.leftOpen 10 13)) >>= (·.intervals dbg)) [.leftOpen 0 10, .upFrom 13] := by decide

-- src/test/tine_tree/minus.rs:391
example : ∀ dbg, SameSetOk ((TineTree.fromRawInterval (α := Int) (.upFrom 0)).minus dbg
    (TineTree.fromRawInterval (.rightOpen 10 13)) >>= (·.intervals dbg)) [.opn 0 10, .frm 13] := by decide

-- src/test/tine_tree/minus.rs:392
example : ∀ dbg, SameSetOk ((TineTree.fromRawInterval (α := Int) (.upFrom 0)).minus dbg
    (TineTree.fromRawInterval (.closed 10 13)) >>= (·.intervals dbg)) [.opn 0 10, .upFrom 13] := by decide

-- src/test/tine_tree/minus.rs:393
example : ∀ dbg, SameSetOk ((TineTree.fromRawInterval (α := Int) (.upFrom 0)).minus dbg
    (TineTree.fromRawInterval (.upTo 13)) >>= (·.intervals dbg)) [.frm 13] := by decide

-- src/test/tine_tree/minus.rs:394
example : ∀ dbg, SameSetOk ((TineTree.fromRawInterval (α := Int) (.upFrom 0)).minus dbg
    (TineTree.fromRawInterval (.upFrom 13)) >>= (·.intervals dbg)) [.leftOpen 0 13] := by decide

-- src/test/tine_tree/minus.rs:395
example : ∀ dbg, SameSetOk ((TineTree.fromRawInterval (α := Int) (.upFrom 0)).minus dbg
    (TineTree.fromRawInterval (.to 13)) >>= (·.intervals dbg)) [.upFrom 13] := by decide

-- src/test/tine_tree/minus.rs:396
example : ∀ dbg, SameSetOk ((TineTree.fromRawInterval (α := Int) (.upFrom 0)).minus dbg
    (TineTree.fromRawInterval (.frm 13)) >>= (·.intervals dbg)) [.opn 0 13] := by decide

-- src/test/tine_tree/minus.rs:397
example : ∀ dbg, SameSetOk ((TineTree.fromRawInterval (α := Int) (.upFrom 0)).minus dbg
    (TineTree.fromRawInterval .full) >>= (·.intervals dbg)) [] := by decide

-- src/test/tine_tree/minus.rs:404
example : ∀ dbg, SameSetOk ((TineTree.fromRawInterval (α := Int) (.to 3)).minus dbg
    (TineTree.fromRawInterval .empty) >>= (·.intervals dbg)) [.to 3] := by decide

-- src/test/tine_tree/minus.rs:405
example : ∀ dbg, SameSetOk ((TineTree.fromRawInterval (α := Int) (.to 3)).minus dbg
    (TineTree.fromRawInterval (.point 2)) >>= (·.intervals dbg)) [.upTo 2, .leftOpen 2 3] := by decide

-- src/test/tine_tree/minus.rs:406
example : ∀ dbg, SameSetOk ((TineTree.fromRawInterval (α := Int) (.to 3)).minus dbg
    (TineTree.fromRawInterval (.opn 0 3)) >>= (·.intervals dbg)) [.to 0, .point 3] := by decide

-- src/test/tine_tree/minus.rs:407
example : ∀ dbg, SameSetOk ((TineTree.fromRawInterval (α := Int) (.to 3)).minus dbg
    (TineTree.fromRawInterval (.leftOpen 0 3)) >>= (·.intervals dbg)) [.to 0] := by decide

-- src/test/tine_tree/minus.rs:408
example : ∀ dbg, SameSetOk ((TineTree.fromRawInterval (α := Int) (.to 3)).minus dbg
    (TineTree.fromRawInterval (.rightOpen 0 3)) >>= (·.intervals dbg)) [.upTo 0, .point 3] := by decide

-- src/test/tine_tree/minus.rs:409
example : ∀ dbg, SameSetOk ((TineTree.fromRawInterval (α := Int) (.to 3)).minus dbg
    (TineTree.fromRawInterval (.closed 0 3)) >>= (·.intervals dbg)) [.upTo 0] := by decide

-- src/test/tine_tree/minus.rs:410
example : ∀ dbg, SameSetOk ((TineTree.fromRawInterval (α := Int) (.to 3)).minus dbg
    (TineTree.fromRawInterval (.upTo 2)) >>= (·.intervals dbg)) [.closed 2 3] := by decide

-- src/test/tine_tree/minus.rs:411
example : ∀ dbg, SameSetOk ((TineTree.fromRawInterval (α := Int) (.to 3)).minus dbg
    (TineTree.fromRawInterval (.upFrom 2)) >>= (·.intervals dbg)) [.to 2] := by decide

-- src/test/tine_tree/minus.rs:412
example : ∀ dbg, SameSetOk ((TineTree.fromRawInterval (α := Int) (.to 3)).minus dbg
    (TineTree.fromRawInterval (.to 2)) >>= (·.intervals dbg)) [.leftOpen 2 3] := by decide

-- src/test/tine_tree/minus.rs:413
example : ∀ dbg, SameSetOk ((TineTree.fromRawInterval (α := Int) (.to 3)).minus dbg
    (TineTree.fromRawInterval (.frm 2)) >>= (·.intervals dbg)) [.upTo 2] := by decide

-- src/test/tine_tree/minus.rs:414
example : ∀ dbg, SameSetOk ((TineTree.fromRawInterval (α := Int) (.to 3)).minus dbg
    (TineTree.fromRawInterval .full) >>= (·.intervals dbg)) [] := by decide

-- src/test/tine_tree/minus.rs:421
example : ∀ dbg, SameSetOk ((TineTree.fromRawInterval (α := Int) (.to 3)).minus dbg
    (TineTree.fromRawInterval .empty) >>= (·.intervals dbg)) [.to 3] := by decide

-- src/test/tine_tree/minus.rs:422
example : ∀ dbg, SameSetOk ((TineTree.fromRawInterval (α := Int) (.to 3)).minus dbg
    (TineTree.fromRawInterval (.point (-3))) >>= (·.intervals dbg)) [.upTo (-3), .leftOpen (-3) 3] := by decide

-- src/test/tine_tree/minus.rs:423
example : ∀ dbg, SameSetOk ((TineTree.fromRawInterval (α := Int) (.to 3)).minus dbg
    (TineTree.fromRawInterval (.opn (-3) (-1))) >>= (·.intervals dbg)) [.to (-3), .closed (-1) 3] := by decide

-- src/test/tine_tree/minus.rs:424
example : ∀ dbg, SameSetOk ((TineTree.fromRawInterval (α := Int) (.to 3)).minus dbg
    (TineTree.fromRawInterval (.leftOpen (-3) (-1))) >>= (·.intervals dbg)) [.to (-3), .leftOpen (-1) 3] := by decide

-- src/test/tine_tree/minus.rs:425
example : ∀ dbg, SameSetOk ((TineTree.fromRawInterval (α := Int) (.to 3)).minus dbg
    (TineTree.fromRawInterval (.rightOpen (-3) (-1))) >>= (·.intervals dbg)) [.upTo (-3), .closed (-1) 3] := by decide

-- src/test/tine_tree/minus.rs:426
example : ∀ dbg, SameSetOk ((TineTree.fromRawInterval (α := Int) (.to 3)).minus dbg
    (TineTree.fromRawInterval (.closed (-3) (-1))) >>= (·.intervals dbg)) [.upTo (-3), .leftOpen (-1) 3] := by decide

-- src/test/tine_tree/minus.rs:427
example : ∀ dbg, SameSetOk ((TineTree.fromRawInterval (α := Int) (.to 3)).minus dbg
    (TineTree.fromRawInterval (.upTo (-3))) >>= (·.intervals dbg)) [.closed (-3) 3] := by decide

-- src/test/tine_tree/minus.rs:428
example : ∀ dbg, SameSetOk ((TineTree.fromRawInterval (α := Int) (.to 3)).minus dbg
    (TineTree.fromRawInterval (.upFrom (-3))) >>= (·.intervals dbg)) [.to (-3)] := by decide

-- src/test/tine_tree/minus.rs:429
example : ∀ dbg, SameSetOk ((TineTree.fromRawInterval (α := Int) (.to 3)).minus dbg
    (TineTree.fromRawInterval (.to (-3))) >>= (·.intervals dbg)) [.leftOpen (-3) 3] := by decide

-- src/test/tine_tree/minus.rs:430
example : ∀ dbg, SameSetOk ((TineTree.fromRawInterval (α := Int) (.to 3)).minus dbg
    (TineTree.fromRawInterval (.frm (-3))) >>= (·.intervals dbg)) [.upTo (-3)] := by decide

-- src/test/tine_tree/minus.rs:431
example : ∀ dbg, SameSetOk ((TineTree.fromRawInterval (α := Int) (.to 3)).minus dbg
    (TineTree.fromRawInterval .full) >>= (·.intervals dbg)) [] := by decide

-- src/test/tine_tree/minus.rs:438
example : ∀ dbg, SameSetOk ((TineTree.fromRawInterval (α := Int) (.to 3)).minus dbg
    (TineTree.fromRawInterval .empty) >>= (·.intervals dbg)) [.to 3] := by decide

-- src/test/tine_tree/minus.rs:439
example : ∀ dbg, SameSetOk ((TineTree.fromRawInterval (α := Int) (.to 3)).minus dbg
    (TineTree.fromRawInterval (.point 13)) >>= (·.intervals dbg)) [.to 3] := by decide

-- src/test/tine_tree/minus.rs:440
example : ∀ dbg, SameSetOk ((TineTree.fromRawInterval (α := Int) (.to 3)).minus dbg
    (TineTree.fromRawInterval (.opn 10 13)) >>= (·.intervals dbg)) [.to 3] := by decide

-- src/test/tine_tree/minus.rs:441
example : ∀ dbg, SameSetOk ((TineTree.fromRawInterval (α := Int) (.to 3)).minus dbg
    (TineTree.fromRawInterval (.leftOpen 10 13)) >>= (·.intervals dbg)) [.to 3] := by decide

-- src/test/tine_tree/minus.rs:442
example : ∀ dbg, SameSetOk ((TineTree.fromRawInterval (α := Int) (.to 3)).minus dbg
    (TineTree.fromRawInterval (.rightOpen 10 13)) >>= (·.intervals dbg)) [.to 3] := by decide

-- src/test/tine_tree/minus.rs:443
example : ∀ dbg, SameSetOk ((TineTree.fromRawInterval (α := Int) (.to 3)).minus dbg
    (TineTree.fromRawInterval (.closed 10 13)) >>= (·.intervals dbg)) [.to 3] := by decide

-- src/test/tine_tree/minus.rs:444
example : ∀ dbg, SameSetOk ((TineTree.fromRawInterval (α := Int) (.to 3)).minus dbg
    (TineTree.fromRawInterval (.upTo 13)) >>= (·.intervals dbg)) [] := by decide

-- src/test/tine_tree/minus.rs:445
example : ∀ dbg, SameSetOk ((TineTree.fromRawInterval (α := Int) (.to 3)).minus dbg
    (TineTree.fromRawInterval (.upFrom 13)) >>= (·.intervals dbg)) [.to 3] := by decide

-- src/test/tine_tree/minus.rs:446
example : ∀ dbg, SameSetOk ((TineTree.fromRawInterval (α := Int) (.to 3)).minus dbg
    (TineTree.fromRawInterval (.to 13)) >>= (·.intervals dbg)) [] := by decide

-- src/test/tine_tree/minus.rs:447
example : ∀ dbg, SameSetOk ((TineTree.fromRawInterval (α := Int) (.to 3)).minus dbg
    (TineTree.fromRawInterval (.frm 13)) >>= (·.intervals dbg)) [.to 3] := by decide

-- src/test/tine_tree/minus.rs:448
example : ∀ dbg, SameSetOk ((TineTree.fromRawInterval (α := Int) (.to 3)).minus dbg
    (TineTree.fromRawInterval .full) >>= (·.intervals dbg)) [] := by decide

-- src/test/tine_tree/minus.rs:455
example : ∀ dbg, SameSetOk ((TineTree.fromRawInterval (α := Int) (.frm 0)).minus dbg
    (TineTree.fromRawInterval .empty) >>= (·.intervals dbg)) [.frm 0] := by decide

-- src/test/tine_tree/minus.rs:456
example : ∀ dbg, SameSetOk ((TineTree.fromRawInterval (α := Int) (.frm 0)).minus dbg
    (TineTree.fromRawInterval (.point 2)) >>= (·.intervals dbg)) [.rightOpen 0 2, .upFrom 2] := by decide

-- src/test/tine_tree/minus.rs:457
example : ∀ dbg, SameSetOk ((TineTree.fromRawInterval (α := Int) (.frm 0)).minus dbg
    (TineTree.fromRawInterval (.opn 0 3)) >>= (·.intervals dbg)) [.point 0, .frm 3] := by decide

-- src/test/tine_tree/minus.rs:458
example : ∀ dbg, SameSetOk ((TineTree.fromRawInterval (α := Int) (.frm 0)).minus dbg
    (TineTree.fromRawInterval (.leftOpen 0 3)) >>= (·.intervals dbg)) [.point 0, .upFrom 3] := by decide

-- src/test/tine_tree/minus.rs:459
example : ∀ dbg, SameSetOk ((TineTree.fromRawInterval (α := Int) (.frm 0)).minus dbg
    (TineTree.fromRawInterval (.rightOpen 0 3)) >>= (·.intervals dbg)) [.frm 3] := by decide

-- src/test/tine_tree/minus.rs:460
example : ∀ dbg, SameSetOk ((TineTree.fromRawInterval (α := Int) (.frm 0)).minus dbg
    (TineTree.fromRawInterval (.closed 0 3)) >>= (·.intervals dbg)) [.upFrom 3] := by decide

-- src/test/tine_tree/minus.rs:461
example : ∀ dbg, SameSetOk ((TineTree.fromRawInterval (α := Int) (.frm 0)).minus dbg
    (TineTree.fromRawInterval (.upTo 2)) >>= (·.intervals dbg)) [.frm 2] := by decide

-- src/test/tine_tree/minus.rs:462
example : ∀ dbg, SameSetOk ((TineTree.fromRawInterval (α := Int) (.frm 0)).minus dbg
    (TineTree.fromRawInterval (.upFrom 2)) >>= (·.intervals dbg)) [.closed 0 2] := by decide

-- src/test/tine_tree/minus.rs:463
example : ∀ dbg, SameSetOk ((TineTree.fromRawInterval (α := Int) (.frm 0)).minus dbg
    (TineTree.fromRawInterval (.to 2)) >>= (·.intervals dbg)) [.upFrom 2] := by decide

-- src/test/tine_tree/minus.rs:464
example : ∀ dbg, SameSetOk ((TineTree.fromRawInterval (α := Int) (.frm 0)).minus dbg
    (TineTree.fromRawInterval (.frm 2)) >>= (·.intervals dbg)) [.rightOpen 0 2] := by decide

-- src/test/tine_tree/minus.rs:465
example : ∀ dbg, SameSetOk ((TineTree.fromRawInterval (α := Int) (.frm 0)).minus dbg
    (TineTree.fromRawInterval .full) >>= (·.intervals dbg)) [] := by decide

-- src/test/tine_tree/minus.rs:472
example : ∀ dbg, SameSetOk ((TineTree.fromRawInterval (α := Int) (.frm 0)).minus dbg
    (TineTree.fromRawInterval .empty) >>= (·.intervals dbg)) [.frm 0] := by decide

-- src/test/tine_tree/minus.rs:473
example : ∀ dbg, SameSetOk ((TineTree.fromRawInterval (α := Int) (.frm 0)).minus dbg
    (TineTree.fromRawInterval (.point (-3))) >>= (·.intervals dbg)) [.frm 0] := by decide

-- src/test/tine_tree/minus.rs:474
example : ∀ dbg, SameSetOk ((TineTree.fromRawInterval (α := Int) (.frm 0)).minus dbg
    (TineTree.fromRawInterval (.opn (-3) (-1))) >>= (·.intervals dbg)) [.frm 0] := by decide

-- src/test/tine_tree/minus.rs:475
example : ∀ dbg, SameSetOk ((TineTree.fromRawInterval (α := Int) (.frm 0)).minus dbg
    (TineTree.fromRawInterval (.leftOpen (-3) (-1))) >>= (·.intervals dbg)) [.frm 0] := by decide

-- src/test/tine_tree/minus.rs:476
example : ∀ dbg, SameSetOk ((TineTree.fromRawInterval (α := Int) (.frm 0)).minus dbg
    (TineTree.fromRawInterval (.rightOpen (-3) (-1))) >>= (·.intervals dbg)) [.frm 0] := by decide

-- src/test/tine_tree/minus.rs:477
example : ∀ dbg, SameSetOk ((TineTree.fromRawInterval (α := Int) (.frm 0)).minus dbg
    (TineTree.fromRawInterval (.closed (-3) (-1))) >>= (·.intervals dbg)) [.frm 0] := by decide

-- src/test/tine_tree/minus.rs:478
example : ∀ dbg, SameSetOk ((TineTree.fromRawInterval (α := Int) (.frm 0)).minus dbg
    (TineTree.fromRawInterval (.upTo (-3))) >>= (·.intervals dbg)) [.frm 0] := by decide

-- src/test/tine_tree/minus.rs:479
example : ∀ dbg, SameSetOk ((TineTree.fromRawInterval (α := Int) (.frm 0)).minus dbg
    (TineTree.fromRawInterval (.upFrom (-3))) >>= (·.intervals dbg)) [] := by decide

-- src/test/tine_tree/minus.rs:480
example : ∀ dbg, SameSetOk ((TineTree.fromRawInterval (α := Int) (.frm 0)).minus dbg
    (TineTree.fromRawInterval (.to (-3))) >>= (·.intervals dbg)) [.frm 0] := by decide

-- src/test/tine_tree/minus.rs:481
example : ∀ dbg, SameSetOk ((TineTree.fromRawInterval (α := Int) (.frm 0)).minus dbg
    (TineTree.fromRawInterval (.frm (-3))) >>= (·.intervals dbg)) [] := by decide

-- src/test/tine_tree/minus.rs:482
example : ∀ dbg, SameSetOk ((TineTree.fromRawInterval (α := Int) (.frm 0)).minus dbg
    (TineTree.fromRawInterval .full) >>= (·.intervals dbg)) [] := by decide

-- src/test/tine_tree/minus.rs:489
example : ∀ dbg, SameSetOk ((TineTree.fromRawInterval (α := Int) (.frm 0)).minus dbg
    (TineTree.fromRawInterval .empty) >>= (·.intervals dbg)) [.frm 0] := by decide

-- src/test/tine_tree/minus.rs:490
example : ∀ dbg, SameSetOk ((TineTree.fromRawInterval (α := Int) (.frm 0)).minus dbg
    (TineTree.fromRawInterval (.point 13)) >>= (·.intervals dbg)) [.rightOpen 0 13, .upFrom 13] := by decide

-- src/test/tine_tree/minus.rs:491
example : ∀ dbg, SameSetOk ((TineTree.fromRawInterval (α := Int) (.frm 0)).minus dbg
    (TineTree.fromRawInterval (.opn 10 13)) >>= (·.intervals dbg)) [.closed 0 10, .frm 13] := by decide

-- src/test/tine_tree/minus.rs:492
example : ∀ dbg, SameSetOk ((TineTree.fromRawInterval (α := Int) (.frm 0)).minus dbg
    (TineTree.fromRawInterval (.leftOpen 10 13)) >>= (·.intervals dbg)) [.closed 0 10, .upFrom 13] := by decide

-- src/test/tine_tree/minus.rs:493
example : ∀ dbg, SameSetOk ((TineTree.fromRawInterval (α := Int) (.frm 0)).minus dbg
    (TineTree.fromRawInterval (.rightOpen 10 13)) >>= (·.intervals dbg)) [.rightOpen 0 10, .frm 13] := by decide

-- src/test/tine_tree/minus.rs:494
example : ∀ dbg, SameSetOk ((TineTree.fromRawInterval (α := Int) (.frm 0)).minus dbg
    (TineTree.fromRawInterval (.closed 10 13)) >>= (·.intervals dbg)) [.rightOpen 0 10, .upFrom 13] := by decide

-- src/test/tine_tree/minus.rs:495
example : ∀ dbg, SameSetOk ((TineTree.fromRawInterval (α := Int) (.frm 0)).minus dbg
    (TineTree.fromRawInterval (.upTo 13)) >>= (·.intervals dbg)) [.frm 13] := by decide

-- src/test/tine_tree/minus.rs:496
example : ∀ dbg, SameSetOk ((TineTree.fromRawInterval (α := Int) (.frm 0)).minus dbg
    (TineTree.fromRawInterval (.upFrom 13)) >>= (·.intervals dbg)) [.closed 0 13] := by decide

-- src/test/tine_tree/minus.rs:497
example : ∀ dbg, SameSetOk ((TineTree.fromRawInterval (α := Int) (.frm 0)).minus dbg
    (TineTree.fromRawInterval (.to 13)) >>= (·.intervals dbg)) [.upFrom 13] := by decide

-- src/test/tine_tree/minus.rs:498
example : ∀ dbg, SameSetOk ((TineTree.fromRawInterval (α := Int) (.frm 0)).minus dbg
    (TineTree.fromRawInterval (.frm 13)) >>= (·.intervals dbg)) [.rightOpen 0 13] := by decide

-- src/test/tine_tree/minus.rs:499
example : ∀ dbg, SameSetOk ((TineTree.fromRawInterval (α := Int) (.frm 0)).minus dbg
    (TineTree.fromRawInterval .full) >>= (·.intervals dbg)) [] := by decide

-- src/test/tine_tree/minus.rs:506
example : ∀ dbg, SameSetOk ((TineTree.fromRawInterval (α := Int) .full).minus dbg
    (TineTree.fromRawInterval .empty) >>= (·.intervals dbg)) [.full] := by decide

-- src/test/tine_tree/minus.rs:507
example : ∀ dbg, SameSetOk ((TineTree.fromRawInterval (α := Int) .full).minus dbg
    (TineTree.fromRawInterval (.point 0)) >>= (·.intervals dbg)) [.upTo 0, .upFrom 0] := by decide

-- src/test/tine_tree/minus.rs:508
example : ∀ dbg, SameSetOk ((TineTree.fromRawInterval (α := Int) .full).minus dbg
    (TineTree.fromRawInterval (.opn 0 3)) >>= (·.intervals dbg)) [.to 0, .frm 3] := by decide

-- src/test/tine_tree/minus.rs:509
example : ∀ dbg, SameSetOk ((TineTree.fromRawInterval (α := Int) .full).minus dbg
    (TineTree.fromRawInterval (.leftOpen 0 3)) >>= (·.intervals dbg)) [.to 0, .upFrom 3] := by decide

-- src/test/tine_tree/minus.rs:510
example : ∀ dbg, SameSetOk ((TineTree.fromRawInterval (α := Int) .full).minus dbg
    (TineTree.fromRawInterval (.rightOpen 0 3)) >>= (·.intervals dbg)) [.upTo 0, .frm 3] := by decide

-- src/test/tine_tree/minus.rs:511
example : ∀ dbg, SameSetOk ((TineTree.fromRawInterval (α := Int) .full).minus dbg
    (TineTree.fromRawInterval (.closed 0 3)) >>= (·.intervals dbg)) [.upTo 0, .upFrom 3] := by decide

-- src/test/tine_tree/minus.rs:512
example : ∀ dbg, SameSetOk ((TineTree.fromRawInterval (α := Int) .full).minus dbg
    (TineTree.fromRawInterval (.upTo 0)) >>= (·.intervals dbg)) [.frm 0] := by decide

-- src/test/tine_tree/minus.rs:513
example : ∀ dbg, SameSetOk ((TineTree.fromRawInterval (α := Int) .full).minus dbg
    (TineTree.fromRawInterval (.upFrom 0)) >>= (·.intervals dbg)) [.to 0] := by decide

-- src/test/tine_tree/minus.rs:514
example : ∀ dbg, SameSetOk ((TineTree.fromRawInterval (α := Int) .full).minus dbg
    (TineTree.fromRawInterval (.to 0)) >>= (·.intervals dbg)) [.upFrom 0] := by decide

-- src/test/tine_tree/minus.rs:515
example : ∀ dbg, SameSetOk ((TineTree.fromRawInterval (α := Int) .full).minus dbg
    (TineTree.fromRawInterval (.frm 0)) >>= (·.intervals dbg)) [.upTo 0] := by decide

-- src/test/tine_tree/minus.rs:516
example : ∀ dbg, SameSetOk ((TineTree.fromRawInterval (α := Int) .full).minus dbg
    (TineTree.fromRawInterval .full) >>= (·.intervals dbg)) [] := by decide

end NI.Tests

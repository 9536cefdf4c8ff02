import Mathlib.Data.Int.Order.Basic
import Verif.Model.RawInterval

/-!
# The unit tests of `src/test/raw_interval`, run on the model

Generated by `tools/gen_tests.py`: one example for every assertion, with the line it comes from.
Lists that the tests compare as sets (`assert_eq_u!`, `assert_eq_i!`) are compared by membership.
-/

namespace NI.Tests

/-- Two lists with the same elements. -/
abbrev SameSet (a b : List (RawInterval Int)) : Prop := (∀ x ∈ a, x ∈ b) ∧ ∀ x ∈ b, x ∈ a

-- src/test/raw_interval/mod.rs:44
example : RawInterval.new (α := Int) (.incl 2) (.incl 4) = .closed 2 4 := by decide

-- src/test/raw_interval/mod.rs:45
example : RawInterval.new (α := Int) (.incl 2) (.excl 4) = .rightOpen 2 4 := by decide

-- src/test/raw_interval/mod.rs:46
example : RawInterval.new (α := Int) (.excl 2) (.incl 4) = .leftOpen 2 4 := by decide

-- src/test/raw_interval/mod.rs:47
example : RawInterval.new (α := Int) (.excl 2) (.excl 4) = .opn 2 4 := by decide

-- src/test/raw_interval/mod.rs:49
example : RawInterval.new (α := Int) (.incl 3) (.incl 3) = .point 3 := by decide

-- src/test/raw_interval/mod.rs:50
example : RawInterval.new (α := Int) (.incl 3) (.excl 3) = .point 3 := by decide

-- src/test/raw_interval/mod.rs:51
example : RawInterval.new (α := Int) (.excl 3) (.incl 3) = .point 3 := by decide

-- src/test/raw_interval/mod.rs:52
example : RawInterval.new (α := Int) (.excl 3) (.excl 3) = .empty := by decide

-- src/test/raw_interval/mod.rs:54
example : RawInterval.new (α := Int) (.incl 4) (.incl 2) = .empty := by decide

-- src/test/raw_interval/mod.rs:55
example : RawInterval.new (α := Int) (.excl 4) (.incl 2) = .empty := by decide

-- src/test/raw_interval/mod.rs:56
example : RawInterval.new (α := Int) (.incl 4) (.excl 2) = .empty := by decide

-- src/test/raw_interval/mod.rs:57
example : RawInterval.new (α := Int) (.excl 4) (.excl 2) = .empty := by decide

-- src/test/raw_interval/mod.rs:62
example : RawInterval.mkOpen (α := Int) 2 4 = .opn 2 4 := by decide

-- src/test/raw_interval/mod.rs:63
example : RawInterval.mkOpen (α := Int) 3 3 = .empty := by decide

-- src/test/raw_interval/mod.rs:64
example : RawInterval.mkOpen (α := Int) 4 2 = .empty := by decide

-- src/test/raw_interval/mod.rs:69
example : RawInterval.mkLeftOpen (α := Int) 2 4 = .leftOpen 2 4 := by decide

-- src/test/raw_interval/mod.rs:70
example : RawInterval.mkLeftOpen (α := Int) 3 3 = .point 3 := by decide

-- src/test/raw_interval/mod.rs:71
example : RawInterval.mkLeftOpen (α := Int) 4 2 = .empty := by decide

-- src/test/raw_interval/mod.rs:76
example : RawInterval.mkRightOpen (α := Int) 2 4 = .rightOpen 2 4 := by decide

-- src/test/raw_interval/mod.rs:77
example : RawInterval.mkRightOpen (α := Int) 3 3 = .point 3 := by decide

-- src/test/raw_interval/mod.rs:78
example : RawInterval.mkRightOpen (α := Int) 4 2 = .empty := by decide

-- src/test/raw_interval/mod.rs:83
example : RawInterval.mkClosed (α := Int) 2 4 = .closed 2 4 := by decide

-- src/test/raw_interval/mod.rs:84
example : RawInterval.mkClosed (α := Int) 3 3 = .point 3 := by decide

-- src/test/raw_interval/mod.rs:85
example : RawInterval.mkClosed (α := Int) 4 2 = .empty := by decide

-- src/test/raw_interval/mod.rs:95
example : (RawInterval.empty : RawInterval Int).lowerBound = none := by decide

-- src/test/raw_interval/mod.rs:98
example : (RawInterval.point 3 : RawInterval Int).lowerBound = some (.incl 3) := by decide

-- src/test/raw_interval/mod.rs:101
example : (RawInterval.opn 0 3 : RawInterval Int).lowerBound = some (.excl 0) := by decide

-- src/test/raw_interval/mod.rs:104
example : (RawInterval.leftOpen 0 3 : RawInterval Int).lowerBound = some (.excl 0) := by decide

-- src/test/raw_interval/mod.rs:107
example : (RawInterval.rightOpen 0 3 : RawInterval Int).lowerBound = some (.incl 0) := by decide

-- src/test/raw_interval/mod.rs:110
example : (RawInterval.closed 0 3 : RawInterval Int).lowerBound = some (.incl 0) := by decide

-- src/test/raw_interval/mod.rs:113
example : (RawInterval.upTo 3 : RawInterval Int).lowerBound = some .inf := by decide

-- src/test/raw_interval/mod.rs:116
example : (RawInterval.upFrom 3 : RawInterval Int).lowerBound = some (.excl 3) := by decide

-- src/test/raw_interval/mod.rs:119
example : (RawInterval.to 3 : RawInterval Int).lowerBound = some .inf := by decide

-- src/test/raw_interval/mod.rs:122
example : (RawInterval.frm 3 : RawInterval Int).lowerBound = some (.incl 3) := by decide

-- src/test/raw_interval/mod.rs:125
example : (RawInterval.full : RawInterval Int).lowerBound = some .inf := by decide

-- src/test/raw_interval/mod.rs:131
example : (RawInterval.empty : RawInterval Int).upperBound = none := by decide

-- src/test/raw_interval/mod.rs:134
example : (RawInterval.point 3 : RawInterval Int).upperBound = some (.incl 3) := by decide

-- src/test/raw_interval/mod.rs:137
example : (RawInterval.opn 0 3 : RawInterval Int).upperBound = some (.excl 3) := by decide

-- src/test/raw_interval/mod.rs:140
example : (RawInterval.leftOpen 0 3 : RawInterval Int).upperBound = some (.incl 3) := by decide

-- src/test/raw_interval/mod.rs:143
example : (RawInterval.rightOpen 0 3 : RawInterval Int).upperBound = some (.excl 3) := by decide

-- src/test/raw_interval/mod.rs:146
example : (RawInterval.closed 0 3 : RawInterval Int).upperBound = some (.incl 3) := by decide

-- src/test/raw_interval/mod.rs:149
example : (RawInterval.upTo 3 : RawInterval Int).upperBound = some (.excl 3) := by decide

-- src/test/raw_interval/mod.rs:152
example : (RawInterval.upFrom 3 : RawInterval Int).upperBound = some .inf := by decide

-- src/test/raw_interval/mod.rs:155
example : (RawInterval.to 3 : RawInterval Int).upperBound = some (.incl 3) := by decide

-- src/test/raw_interval/mod.rs:158
example : (RawInterval.frm 3 : RawInterval Int).upperBound = some .inf := by decide

-- src/test/raw_interval/mod.rs:161
example : (RawInterval.full : RawInterval Int).upperBound = some .inf := by decide

-- src/test/raw_interval/mod.rs:167
example : (RawInterval.empty : RawInterval Int).infimum = none := by decide

-- src/test/raw_interval/mod.rs:170
example : (RawInterval.point 3 : RawInterval Int).infimum = some 3 := by decide

-- src/test/raw_interval/mod.rs:173
example : (RawInterval.opn 0 3 : RawInterval Int).infimum = some 0 := by decide

-- src/test/raw_interval/mod.rs:176
example : (RawInterval.leftOpen 0 3 : RawInterval Int).infimum = some 0 := by decide

-- src/test/raw_interval/mod.rs:179
example : (RawInterval.rightOpen 0 3 : RawInterval Int).infimum = some 0 := by decide

-- src/test/raw_interval/mod.rs:182
example : (RawInterval.closed 0 3 : RawInterval Int).infimum = some 0 := by decide

-- src/test/raw_interval/mod.rs:185
example : (RawInterval.upTo 3 : RawInterval Int).infimum = none := by decide

-- src/test/raw_interval/mod.rs:188
example : (RawInterval.upFrom 3 : RawInterval Int).infimum = some 3 := by decide

-- src/test/raw_interval/mod.rs:191
example : (RawInterval.to 3 : RawInterval Int).infimum = none := by decide

-- src/test/raw_interval/mod.rs:194
example : (RawInterval.frm 3 : RawInterval Int).infimum = some 3 := by decide

-- src/test/raw_interval/mod.rs:197
example : (RawInterval.full : RawInterval Int).infimum = none := by decide

-- src/test/raw_interval/mod.rs:203
example : (RawInterval.empty : RawInterval Int).supremum = none := by decide

-- src/test/raw_interval/mod.rs:206
example : (RawInterval.point 3 : RawInterval Int).supremum = some 3 := by decide

-- src/test/raw_interval/mod.rs:209
example : (RawInterval.opn 0 3 : RawInterval Int).supremum = some 3 := by decide

-- src/test/raw_interval/mod.rs:212
example : (RawInterval.leftOpen 0 3 : RawInterval Int).supremum = some 3 := by decide

-- src/test/raw_interval/mod.rs:215
example : (RawInterval.rightOpen 0 3 : RawInterval Int).supremum = some 3 := by decide

-- src/test/raw_interval/mod.rs:218
example : (RawInterval.closed 0 3 : RawInterval Int).supremum = some 3 := by decide

-- src/test/raw_interval/mod.rs:221
example : (RawInterval.upTo 3 : RawInterval Int).supremum = some 3 := by decide

-- src/test/raw_interval/mod.rs:224
example : (RawInterval.upFrom 3 : RawInterval Int).supremum = none := by decide

-- src/test/raw_interval/mod.rs:227
example : (RawInterval.to 3 : RawInterval Int).supremum = some 3 := by decide

-- src/test/raw_interval/mod.rs:230
example : (RawInterval.frm 3 : RawInterval Int).supremum = none := by decide

-- src/test/raw_interval/mod.rs:233
example : (RawInterval.full : RawInterval Int).supremum = none := by decide

-- src/test/raw_interval/mod.rs:244
example : (RawInterval.empty : RawInterval Int).isEmpty = true := by decide

-- src/test/raw_interval/mod.rs:247
example : (RawInterval.point 3 : RawInterval Int).isEmpty = false := by decide

-- src/test/raw_interval/mod.rs:250
example : (RawInterval.opn 0 3 : RawInterval Int).isEmpty = false := by decide

-- src/test/raw_interval/mod.rs:253
example : (RawInterval.leftOpen 0 3 : RawInterval Int).isEmpty = false := by decide

-- src/test/raw_interval/mod.rs:256
example : (RawInterval.rightOpen 0 3 : RawInterval Int).isEmpty = false := by decide

-- src/test/raw_interval/mod.rs:259
example : (RawInterval.closed 0 3 : RawInterval Int).isEmpty = false := by decide

-- src/test/raw_interval/mod.rs:262
example : (RawInterval.upTo 3 : RawInterval Int).isEmpty = false := by decide

-- src/test/raw_interval/mod.rs:265
example : (RawInterval.upFrom 3 : RawInterval Int).isEmpty = false := by decide

-- src/test/raw_interval/mod.rs:268
example : (RawInterval.to 3 : RawInterval Int).isEmpty = false := by decide

-- src/test/raw_interval/mod.rs:271
example : (RawInterval.frm 3 : RawInterval Int).isEmpty = false := by decide

-- src/test/raw_interval/mod.rs:274
example : (RawInterval.full : RawInterval Int).isEmpty = false := by decide

-- src/test/raw_interval/mod.rs:280
example : (RawInterval.empty : RawInterval Int).contains (-1) = false := by decide

-- src/test/raw_interval/mod.rs:281
example : (RawInterval.empty : RawInterval Int).contains 0 = false := by decide

-- src/test/raw_interval/mod.rs:282
example : (RawInterval.empty : RawInterval Int).contains 2 = false := by decide

-- src/test/raw_interval/mod.rs:283
example : (RawInterval.empty : RawInterval Int).contains 3 = false := by decide

-- src/test/raw_interval/mod.rs:284
example : (RawInterval.empty : RawInterval Int).contains 4 = false := by decide

-- src/test/raw_interval/mod.rs:287
example : (RawInterval.point 3 : RawInterval Int).contains (-1) = false := by decide

-- src/test/raw_interval/mod.rs:288
example : (RawInterval.point 3 : RawInterval Int).contains 0 = false := by decide

-- src/test/raw_interval/mod.rs:289
example : (RawInterval.point 3 : RawInterval Int).contains 2 = false := by decide

-- src/test/raw_interval/mod.rs:290
example : (RawInterval.point 3 : RawInterval Int).contains 3 = true := by decide

-- src/test/raw_interval/mod.rs:291
example : (RawInterval.point 3 : RawInterval Int).contains 4 = false := by decide

-- src/test/raw_interval/mod.rs:294
example : (RawInterval.opn 0 3 : RawInterval Int).contains (-1) = false := by decide

-- src/test/raw_interval/mod.rs:295
example : (RawInterval.opn 0 3 : RawInterval Int).contains 0 = false := by decide

-- src/test/raw_interval/mod.rs:296
example : (RawInterval.opn 0 3 : RawInterval Int).contains 2 = true := by decide

-- src/test/raw_interval/mod.rs:297
example : (RawInterval.opn 0 3 : RawInterval Int).contains 3 = false := by decide

-- src/test/raw_interval/mod.rs:298
example : (RawInterval.opn 0 3 : RawInterval Int).contains 4 = false := by decide

-- src/test/raw_interval/mod.rs:301
example : (RawInterval.leftOpen 0 3 : RawInterval Int).contains (-1) = false := by decide

-- src/test/raw_interval/mod.rs:302
example : (RawInterval.leftOpen 0 3 : RawInterval Int).contains 0 = false := by decide

-- src/test/raw_interval/mod.rs:303
example : (RawInterval.leftOpen 0 3 : RawInterval Int).contains 2 = true := by decide

-- src/test/raw_interval/mod.rs:304
example : (RawInterval.leftOpen 0 3 : RawInterval Int).contains 3 = true := by decide

-- src/test/raw_interval/mod.rs:305
example : (RawInterval.leftOpen 0 3 : RawInterval Int).contains 4 = false := by decide

-- src/test/raw_interval/mod.rs:308
example : (RawInterval.rightOpen 0 3 : RawInterval Int).contains (-1) = false := by decide

-- src/test/raw_interval/mod.rs:309
example : (RawInterval.rightOpen 0 3 : RawInterval Int).contains 0 = true := by decide

-- src/test/raw_interval/mod.rs:310
example : (RawInterval.rightOpen 0 3 : RawInterval Int).contains 2 = true := by decide

-- src/test/raw_interval/mod.rs:311
example : (RawInterval.rightOpen 0 3 : RawInterval Int).contains 3 = false := by decide

-- src/test/raw_interval/mod.rs:312
example : (RawInterval.rightOpen 0 3 : RawInterval Int).contains 4 = false := by decide

-- src/test/raw_interval/mod.rs:315
example : (RawInterval.closed 0 3 : RawInterval Int).contains (-1) = false := by decide

-- src/test/raw_interval/mod.rs:316
example : (RawInterval.closed 0 3 : RawInterval Int).contains 0 = true := by decide

-- src/test/raw_interval/mod.rs:317
example : (RawInterval.closed 0 3 : RawInterval Int).contains 2 = true := by decide

-- src/test/raw_interval/mod.rs:318
example : (RawInterval.closed 0 3 : RawInterval Int).contains 3 = true := by decide

-- src/test/raw_interval/mod.rs:319
example : (RawInterval.closed 0 3 : RawInterval Int).contains 4 = false := by decide

-- src/test/raw_interval/mod.rs:322
example : (RawInterval.upTo 3 : RawInterval Int).contains (-1) = true := by decide

-- src/test/raw_interval/mod.rs:323
example : (RawInterval.upTo 3 : RawInterval Int).contains 0 = true := by decide

-- src/test/raw_interval/mod.rs:324
example : (RawInterval.upTo 3 : RawInterval Int).contains 2 = true := by decide

-- src/test/raw_interval/mod.rs:325
example : (RawInterval.upTo 3 : RawInterval Int).contains 3 = false := by decide

-- src/test/raw_interval/mod.rs:326
example : (RawInterval.upTo 3 : RawInterval Int).contains 4 = false := by decide

-- src/test/raw_interval/mod.rs:329
example : (RawInterval.upFrom 3 : RawInterval Int).contains (-1) = false := by decide

-- src/test/raw_interval/mod.rs:330
example : (RawInterval.upFrom 3 : RawInterval Int).contains 0 = false := by decide

-- src/test/raw_interval/mod.rs:331
example : (RawInterval.upFrom 3 : RawInterval Int).contains 2 = false := by decide

-- src/test/raw_interval/mod.rs:332
example : (RawInterval.upFrom 3 : RawInterval Int).contains 3 = false := by decide

-- src/test/raw_interval/mod.rs:333
example : (RawInterval.upFrom 3 : RawInterval Int).contains 4 = true := by decide

-- src/test/raw_interval/mod.rs:336
example : (RawInterval.to 3 : RawInterval Int).contains (-1) = true := by decide

-- src/test/raw_interval/mod.rs:337
example : (RawInterval.to 3 : RawInterval Int).contains 0 = true := by decide

-- src/test/raw_interval/mod.rs:338
example : (RawInterval.to 3 : RawInterval Int).contains 2 = true := by decide

-- src/test/raw_interval/mod.rs:339
example : (RawInterval.to 3 : RawInterval Int).contains 3 = true := by decide

-- src/test/raw_interval/mod.rs:340
example : (RawInterval.to 3 : RawInterval Int).contains 4 = false := by decide

-- src/test/raw_interval/mod.rs:343
example : (RawInterval.frm 3 : RawInterval Int).contains (-1) = false := by decide

-- src/test/raw_interval/mod.rs:344
example : (RawInterval.frm 3 : RawInterval Int).contains 0 = false := by decide

-- src/test/raw_interval/mod.rs:345
example : (RawInterval.frm 3 : RawInterval Int).contains 2 = false := by decide

-- src/test/raw_interval/mod.rs:346
example : (RawInterval.frm 3 : RawInterval Int).contains 3 = true := by decide

-- src/test/raw_interval/mod.rs:347
example : (RawInterval.frm 3 : RawInterval Int).contains 4 = true := by decide

-- src/test/raw_interval/mod.rs:350
example : (RawInterval.full : RawInterval Int).contains (-1) = true := by decide

-- src/test/raw_interval/mod.rs:351
example : (RawInterval.full : RawInterval Int).contains 0 = true := by decide

-- src/test/raw_interval/mod.rs:352
example : (RawInterval.full : RawInterval Int).contains 2 = true := by decide

-- src/test/raw_interval/mod.rs:353
example : (RawInterval.full : RawInterval Int).contains 3 = true := by decide

-- src/test/raw_interval/mod.rs:354
example : (RawInterval.full : RawInterval Int).contains 4 = true := by decide

-- src/test/raw_interval/mod.rs:365
example : SameSet ((RawInterval.full : RawInterval Int).minus .empty) (RawInterval.empty : RawInterval Int).complement := by decide

-- src/test/raw_interval/mod.rs:366
example : SameSet ((RawInterval.full : RawInterval Int).minus (.point 0)) ((RawInterval.point 0) : RawInterval Int).complement := by decide

-- src/test/raw_interval/mod.rs:367
example : SameSet ((RawInterval.full : RawInterval Int).minus (.opn 0 3)) ((RawInterval.opn 0 3) : RawInterval Int).complement := by decide

-- src/test/raw_interval/mod.rs:368
example : SameSet ((RawInterval.full : RawInterval Int).minus (.leftOpen 0 3)) ((RawInterval.leftOpen 0 3) : RawInterval Int).complement := by decide

-- src/test/raw_interval/mod.rs:369
example : SameSet ((RawInterval.full : RawInterval Int).minus (.rightOpen 0 3)) ((RawInterval.rightOpen 0 3) : RawInterval Int).complement := by decide

-- src/test/raw_interval/mod.rs:370
example : SameSet ((RawInterval.full : RawInterval Int).minus (.closed 0 3)) ((RawInterval.closed 0 3) : RawInterval Int).complement := by decide

-- src/test/raw_interval/mod.rs:371
example : SameSet ((RawInterval.full : RawInterval Int).minus (.upTo 0)) ((RawInterval.upTo 0) : RawInterval Int).complement := by decide

-- src/test/raw_interval/mod.rs:372
example : SameSet ((RawInterval.full : RawInterval Int).minus (.upFrom 0)) ((RawInterval.upFrom 0) : RawInterval Int).complement := by decide

-- src/test/raw_interval/mod.rs:373
example : SameSet ((RawInterval.full : RawInterval Int).minus (.to 0)) ((RawInterval.to 0) : RawInterval Int).complement := by decide

-- src/test/raw_interval/mod.rs:374
example : SameSet ((RawInterval.full : RawInterval Int).minus (.frm 0)) ((RawInterval.frm 0) : RawInterval Int).complement := by decide

-- src/test/raw_interval/mod.rs:375
example : SameSet ((RawInterval.full : RawInterval Int).minus .full) (RawInterval.full : RawInterval Int).complement := by decide

-- src/test/raw_interval/enclose.rs:30
example : (RawInterval.empty : RawInterval Int).enclose .empty = .empty := by decide

-- src/test/raw_interval/enclose.rs:31
example : (RawInterval.empty : RawInterval Int).enclose (.point 3) = .point 3 := by decide

-- src/test/raw_interval/enclose.rs:32
example : (RawInterval.empty : RawInterval Int).enclose (.opn 0 3) = .opn 0 3 := by decide

-- src/test/raw_interval/enclose.rs:33
example : (RawInterval.empty : RawInterval Int).enclose (.leftOpen 0 3) = .leftOpen 0 3 := by decide

-- src/test/raw_interval/enclose.rs:34
example : (RawInterval.empty : RawInterval Int).enclose (.rightOpen 0 3) = .rightOpen 0 3 := by decide

-- src/test/raw_interval/enclose.rs:35
example : (RawInterval.empty : RawInterval Int).enclose (.closed 0 3) = .closed 0 3 := by decide

-- src/test/raw_interval/enclose.rs:36
example : (RawInterval.empty : RawInterval Int).enclose (.upTo 3) = .upTo 3 := by decide

-- src/test/raw_interval/enclose.rs:37
example : (RawInterval.empty : RawInterval Int).enclose (.upFrom 3) = .upFrom 3 := by decide

-- src/test/raw_interval/enclose.rs:38
example : (RawInterval.empty : RawInterval Int).enclose (.to 3) = .to 3 := by decide

-- src/test/raw_interval/enclose.rs:39
example : (RawInterval.empty : RawInterval Int).enclose (.frm 3) = .frm 3 := by decide

-- src/test/raw_interval/enclose.rs:40
example : (RawInterval.empty : RawInterval Int).enclose .full = .full := by decide

-- src/test/raw_interval/enclose.rs:47
example : (RawInterval.point 3 : RawInterval Int).enclose .empty = .point 3 := by decide

-- src/test/raw_interval/enclose.rs:48
example : (RawInterval.point 3 : RawInterval Int).enclose (.point 3) = .point 3 := by decide

-- src/test/raw_interval/enclose.rs:49
example : (RawInterval.point 3 : RawInterval Int).enclose (.opn 0 3) = .leftOpen 0 3 := by decide

-- src/test/raw_interval/enclose.rs:50
example : (RawInterval.point 3 : RawInterval Int).enclose (.leftOpen 0 3) = .leftOpen 0 3 := by decide

-- src/test/raw_interval/enclose.rs:51
example : (RawInterval.point 3 : RawInterval Int).enclose (.rightOpen 0 3) = .closed 0 3 := by decide

-- src/test/raw_interval/enclose.rs:52
example : (RawInterval.point 3 : RawInterval Int).enclose (.closed 0 3) = .closed 0 3 := by decide

-- src/test/raw_interval/enclose.rs:53
example : (RawInterval.point 3 : RawInterval Int).enclose (.upTo 3) = .to 3 := by decide

-- src/test/raw_interval/enclose.rs:54
example : (RawInterval.point 3 : RawInterval Int).enclose (.upFrom 3) = .frm 3 := by decide

-- src/test/raw_interval/enclose.rs:55
example : (RawInterval.point 3 : RawInterval Int).enclose (.to 3) = .to 3 := by decide

-- src/test/raw_interval/enclose.rs:56
example : (RawInterval.point 3 : RawInterval Int).enclose (.frm 3) = .frm 3 := by decide

-- src/test/raw_interval/enclose.rs:57
example : (RawInterval.point 3 : RawInterval Int).enclose .full = .full := by decide

-- src/test/raw_interval/enclose.rs:64
example : (RawInterval.point 3 : RawInterval Int).enclose .empty = .point 3 := by decide

-- src/test/raw_interval/enclose.rs:65
example : (RawInterval.point 3 : RawInterval Int).enclose (.point (-1)) = .closed (-1) 3 := by decide

-- src/test/raw_interval/enclose.rs:66
example : (RawInterval.point 3 : RawInterval Int).enclose (.opn (-3) (-1)) = .leftOpen (-3) 3 := by decide

-- src/test/raw_interval/enclose.rs:67
example : (RawInterval.point 3 : RawInterval Int).enclose (.leftOpen (-3) (-1)) = .leftOpen (-3) 3 := by decide

-- src/test/raw_interval/enclose.rs:68
example : (RawInterval.point 3 : RawInterval Int).enclose (.rightOpen (-3) (-1)) = .closed (-3) 3 := by decide

-- src/test/raw_interval/enclose.rs:69
example : (RawInterval.point 3 : RawInterval Int).enclose (.closed (-3) (-1)) = .closed (-3) 3 := by decide

-- src/test/raw_interval/enclose.rs:70
example : (RawInterval.point 3 : RawInterval Int).enclose (.upTo (-3)) = .to 3 := by decide

-- src/test/raw_interval/enclose.rs:71
example : (RawInterval.point 3 : RawInterval Int).enclose (.upFrom (-3)) = .upFrom (-3) := by decide

-- src/test/raw_interval/enclose.rs:72
example : (RawInterval.point 3 : RawInterval Int).enclose (.to (-3)) = .to 3 := by decide

-- src/test/raw_interval/enclose.rs:73
example : (RawInterval.point 3 : RawInterval Int).enclose (.frm (-3)) = .frm (-3) := by decide

-- src/test/raw_interval/enclose.rs:74
example : (RawInterval.point 3 : RawInterval Int).enclose .full = .full := by decide

-- src/test/raw_interval/enclose.rs:81
example : (RawInterval.point 3 : RawInterval Int).enclose .empty = .point 3 := by decide

-- src/test/raw_interval/enclose.rs:82
example : (RawInterval.point 3 : RawInterval Int).enclose (.point 10) = .closed 3 10 := by decide

-- src/test/raw_interval/enclose.rs:83
example : (RawInterval.point 3 : RawInterval Int).enclose (.opn 10 13) = .rightOpen 3 13 := by decide

-- src/test/raw_interval/enclose.rs:84
example : (RawInterval.point 3 : RawInterval Int).enclose (.leftOpen 10 13) = .closed 3 13 := by decide

-- src/test/raw_interval/enclose.rs:85
example : (RawInterval.point 3 : RawInterval Int).enclose (.rightOpen 10 13) = .rightOpen 3 13 := by decide

-- src/test/raw_interval/enclose.rs:86
example : (RawInterval.point 3 : RawInterval Int).enclose (.closed 10 13) = .closed 3 13 := by decide

-- src/test/raw_interval/enclose.rs:87
example : (RawInterval.point 3 : RawInterval Int).enclose (.upTo 13) = .upTo 13 := by decide

-- src/test/raw_interval/enclose.rs:88
example : (RawInterval.point 3 : RawInterval Int).enclose (.upFrom 13) = .frm 3 := by decide

-- src/test/raw_interval/enclose.rs:89
example : (RawInterval.point 3 : RawInterval Int).enclose (.to 13) = .to 13 := by decide

-- src/test/raw_interval/enclose.rs:90
example : (RawInterval.point 3 : RawInterval Int).enclose (.frm 13) = .frm 3 := by decide

-- src/test/raw_interval/enclose.rs:91
example : (RawInterval.point 3 : RawInterval Int).enclose .full = .full := by decide

-- src/test/raw_interval/enclose.rs:98
example : (RawInterval.opn 0 3 : RawInterval Int).enclose .empty = .opn 0 3 := by decide

-- src/test/raw_interval/enclose.rs:99
example : (RawInterval.opn 0 3 : RawInterval Int).enclose (.point 3) = .leftOpen 0 3 := by decide

-- src/test/raw_interval/enclose.rs:100
example : (RawInterval.opn 0 3 : RawInterval Int).enclose (.opn 0 3) = .opn 0 3 := by decide

-- src/test/raw_interval/enclose.rs:101
example : (RawInterval.opn 0 3 : RawInterval Int).enclose (.leftOpen 0 3) = .leftOpen 0 3 := by decide

-- src/test/raw_interval/enclose.rs:102
example : (RawInterval.opn 0 3 : RawInterval Int).enclose (.rightOpen 0 3) = .rightOpen 0 3 := by decide

-- src/test/raw_interval/enclose.rs:103
example : (RawInterval.opn 0 3 : RawInterval Int).enclose (.closed 0 3) = .closed 0 3 := by decide

-- src/test/raw_interval/enclose.rs:104
example : (RawInterval.opn 0 3 : RawInterval Int).enclose (.upTo 3) = .upTo 3 := by decide

-- src/test/raw_interval/enclose.rs:105
example : (RawInterval.opn 0 3 : RawInterval Int).enclose (.upFrom 3) = .upFrom 0 := by decide

-- src/test/raw_interval/enclose.rs:106
example : (RawInterval.opn 0 3 : RawInterval Int).enclose (.to 3) = .to 3 := by decide

-- src/test/raw_interval/enclose.rs:107
example : (RawInterval.opn 0 3 : RawInterval Int).enclose (.frm 3) = .upFrom 0 := by decide

-- src/test/raw_interval/enclose.rs:108
example : (RawInterval.opn 0 3 : RawInterval Int).enclose .full = .full := by decide

-- src/test/raw_interval/enclose.rs:115
example : (RawInterval.opn 0 3 : RawInterval Int).enclose .empty = .opn 0 3 := by decide

-- src/test/raw_interval/enclose.rs:116
example : (RawInterval.opn 0 3 : RawInterval Int).enclose (.point (-3)) = .rightOpen (-3) 3 := by decide

-- src/test/raw_interval/enclose.rs:117
example : (RawInterval.opn 0 3 : RawInterval Int).enclose (.opn (-3) (-1)) = .opn (-3) 3 := by decide

-- src/test/raw_interval/enclose.rs:118
example : (RawInterval.opn 0 3 : RawInterval Int).enclose (.leftOpen (-3) (-1)) = .opn (-3) 3 := by decide

-- src/test/raw_interval/enclose.rs:119
example : (RawInterval.opn 0 3 : RawInterval Int).enclose (.rightOpen (-3) (-1)) = .rightOpen (-3) 3 := by decide

-- src/test/raw_interval/enclose.rs:120
example : (RawInterval.opn 0 3 : RawInterval Int).enclose (.closed (-3) (-1)) = .rightOpen (-3) 3 := by decide

-- src/test/raw_interval/enclose.rs:121
example : (RawInterval.opn 0 3 : RawInterval Int).enclose (.upTo (-3)) = .upTo 3 := by decide

-- src/test/raw_interval/enclose.rs:122
example : (RawInterval.opn 0 3 : RawInterval Int).enclose (.upFrom (-3)) = .upFrom (-3) := by decide

-- src/test/raw_interval/enclose.rs:123
example : (RawInterval.opn 0 3 : RawInterval Int).enclose (.to (-3)) = .upTo 3 := by decide

-- src/test/raw_interval/enclose.rs:124
example : (RawInterval.opn 0 3 : RawInterval Int).enclose (.frm (-3)) = .frm (-3) := by decide

-- src/test/raw_interval/enclose.rs:125
example : (RawInterval.opn 0 3 : RawInterval Int).enclose .full = .full := by decide

-- src/test/raw_interval/enclose.rs:132
example : (RawInterval.opn 0 3 : RawInterval Int).enclose .empty = .opn 0 3 := by decide

-- src/test/raw_interval/enclose.rs:133
example : (RawInterval.opn 0 3 : RawInterval Int).enclose (.point 13) = .leftOpen 0 13 := by decide

-- src/test/raw_interval/enclose.rs:134
example : (RawInterval.opn 0 3 : RawInterval Int).enclose (.opn 10 13) = .opn 0 13 := by decide

-- src/test/raw_interval/enclose.rs:135
example : (RawInterval.opn 0 3 : RawInterval Int).enclose (.leftOpen 10 13) = .leftOpen 0 13 := by decide

-- src/test/raw_interval/enclose.rs:136
example : (RawInterval.opn 0 3 : RawInterval Int).enclose (.rightOpen 10 13) = .opn 0 13 := by decide

-- src/test/raw_interval/enclose.rs:137
example : (RawInterval.opn 0 3 : RawInterval Int).enclose (.closed 10 13) = .leftOpen 0 13 := by decide

-- src/test/raw_interval/enclose.rs:138
example : (RawInterval.opn 0 3 : RawInterval Int).enclose (.upTo 13) = .upTo 13 := by decide

-- src/test/raw_interval/enclose.rs:139
example : (RawInterval.opn 0 3 : RawInterval Int).enclose (.upFrom 13) = .upFrom 0 := by decide

-- src/test/raw_interval/enclose.rs:140
example : (RawInterval.opn 0 3 : RawInterval Int).enclose (.to 13) = .to 13 := by decide

-- src/test/raw_interval/enclose.rs:141
example : (RawInterval.opn 0 3 : RawInterval Int).enclose (.frm 13) = .upFrom 0 := by decide

-- src/test/raw_interval/enclose.rs:142
example : (RawInterval.opn 0 3 : RawInterval Int).enclose .full = .full := by decide

-- src/test/raw_interval/enclose.rs:149
example : (RawInterval.leftOpen 0 3 : RawInterval Int).enclose .empty = .leftOpen 0 3 := by decide

-- src/test/raw_interval/enclose.rs:150
example : (RawInterval.leftOpen 0 3 : RawInterval Int).enclose (.point 3) = .leftOpen 0 3 := by decide

-- src/test/raw_interval/enclose.rs:151
example : (RawInterval.leftOpen 0 3 : RawInterval Int).enclose (.opn 0 3) = .leftOpen 0 3 := by decide

-- src/test/raw_interval/enclose.rs:152
example : (RawInterval.leftOpen 0 3 : RawInterval Int).enclose (.leftOpen 0 3) = .leftOpen 0 3 := by decide

-- src/test/raw_interval/enclose.rs:153
example : (RawInterval.leftOpen 0 3 : RawInterval Int).enclose (.rightOpen 0 3) = .closed 0 3 := by decide

-- src/test/raw_interval/enclose.rs:154
example : (RawInterval.leftOpen 0 3 : RawInterval Int).enclose (.closed 0 3) = .closed 0 3 := by decide

-- src/test/raw_interval/enclose.rs:155
example : (RawInterval.leftOpen 0 3 : RawInterval Int).enclose (.upTo 3) = .to 3 := by decide

-- src/test/raw_interval/enclose.rs:156
example : (RawInterval.leftOpen 0 3 : RawInterval Int).enclose (.upFrom 3) = .upFrom 0 := by decide

-- src/test/raw_interval/enclose.rs:157
example : (RawInterval.leftOpen 0 3 : RawInterval Int).enclose (.to 3) = .to 3 := by decide

-- src/test/raw_interval/enclose.rs:158
example : (RawInterval.leftOpen 0 3 : RawInterval Int).enclose (.frm 3) = .upFrom 0 := by decide

-- src/test/raw_interval/enclose.rs:159
example : (RawInterval.leftOpen 0 3 : RawInterval Int).enclose .full = .full := by decide

-- src/test/raw_interval/enclose.rs:166
example : (RawInterval.leftOpen 0 3 : RawInterval Int).enclose .empty = .leftOpen 0 3 := by decide

-- src/test/raw_interval/enclose.rs:167
example : (RawInterval.leftOpen 0 3 : RawInterval Int).enclose (.point (-3)) = .closed (-3) 3 := by decide

-- src/test/raw_interval/enclose.rs:168
example : (RawInterval.leftOpen 0 3 : RawInterval Int).enclose (.opn (-3) (-1)) = .leftOpen (-3) 3 := by decide

-- src/test/raw_interval/enclose.rs:169
example : (RawInterval.leftOpen 0 3 : RawInterval Int).enclose (.leftOpen (-3) (-1)) = .leftOpen (-3) 3 := by decide

-- src/test/raw_interval/enclose.rs:170
example : (RawInterval.leftOpen 0 3 : RawInterval Int).enclose (.rightOpen (-3) (-1)) = .closed (-3) 3 := by decide

-- src/test/raw_interval/enclose.rs:171
example : (RawInterval.leftOpen 0 3 : RawInterval Int).enclose (.closed (-3) (-1)) = .closed (-3) 3 := by decide

-- src/test/raw_interval/enclose.rs:172
example : (RawInterval.leftOpen 0 3 : RawInterval Int).enclose (.upTo (-3)) = .to 3 := by decide

-- src/test/raw_interval/enclose.rs:173
example : (RawInterval.leftOpen 0 3 : RawInterval Int).enclose (.upFrom (-3)) = .upFrom (-3) := by decide

-- src/test/raw_interval/enclose.rs:174
example : (RawInterval.leftOpen 0 3 : RawInterval Int).enclose (.to (-3)) = .to 3 := by decide

-- src/test/raw_interval/enclose.rs:175
example : (RawInterval.leftOpen 0 3 : RawInterval Int).enclose (.frm (-3)) = .frm (-3) := by decide

-- src/test/raw_interval/enclose.rs:176
example : (RawInterval.leftOpen 0 3 : RawInterval Int).enclose .full = .full := by decide

-- src/test/raw_interval/enclose.rs:183
example : (RawInterval.leftOpen 0 3 : RawInterval Int).enclose .empty = .leftOpen 0 3 := by decide

-- src/test/raw_interval/enclose.rs:184
example : (RawInterval.leftOpen 0 3 : RawInterval Int).enclose (.point 13) = .leftOpen 0 13 := by decide

-- src/test/raw_interval/enclose.rs:185
example : (RawInterval.leftOpen 0 3 : RawInterval Int).enclose (.opn 10 13) = .opn 0 13 := by decide

-- src/test/raw_interval/enclose.rs:186
example : (RawInterval.leftOpen 0 3 : RawInterval Int).enclose (.leftOpen 10 13) = .leftOpen 0 13 := by decide

-- src/test/raw_interval/enclose.rs:187
example : (RawInterval.leftOpen 0 3 : RawInterval Int).enclose (.rightOpen 10 13) = .opn 0 13 := by decide

-- src/test/raw_interval/enclose.rs:188
example : (RawInterval.leftOpen 0 3 : RawInterval Int).enclose (.closed 10 13) = .leftOpen 0 13 := by decide

-- src/test/raw_interval/enclose.rs:189
example : (RawInterval.leftOpen 0 3 : RawInterval Int).enclose (.upTo 13) = .upTo 13 := by decide

-- src/test/raw_interval/enclose.rs:190
example : (RawInterval.leftOpen 0 3 : RawInterval Int).enclose (.upFrom 13) = .upFrom 0 := by decide

-- src/test/raw_interval/enclose.rs:191
example : (RawInterval.leftOpen 0 3 : RawInterval Int).enclose (.to 13) = .to 13 := by decide

-- src/test/raw_interval/enclose.rs:192
example : (RawInterval.leftOpen 0 3 : RawInterval Int).enclose (.frm 13) = .upFrom 0 := by decide

-- src/test/raw_interval/enclose.rs:193
example : (RawInterval.leftOpen 0 3 : RawInterval Int).enclose .full = .full := by decide

-- src/test/raw_interval/enclose.rs:200
example : (RawInterval.rightOpen 0 3 : RawInterval Int).enclose .empty = .rightOpen 0 3 := by decide

-- src/test/raw_interval/enclose.rs:201
example : (RawInterval.rightOpen 0 3 : RawInterval Int).enclose (.point 3) = .closed 0 3 := by decide

-- src/test/raw_interval/enclose.rs:202
example : (RawInterval.rightOpen 0 3 : RawInterval Int).enclose (.opn 0 3) = .rightOpen 0 3 := by decide

-- src/test/raw_interval/enclose.rs:203
example : (RawInterval.rightOpen 0 3 : RawInterval Int).enclose (.leftOpen 0 3) = .closed 0 3 := by decide

-- src/test/raw_interval/enclose.rs:204
example : (RawInterval.rightOpen 0 3 : RawInterval Int).enclose (.rightOpen 0 3) = .rightOpen 0 3 := by decide

-- src/test/raw_interval/enclose.rs:205
example : (RawInterval.rightOpen 0 3 : RawInterval Int).enclose (.closed 0 3) = .closed 0 3 := by decide

-- src/test/raw_interval/enclose.rs:206
example : (RawInterval.rightOpen 0 3 : RawInterval Int).enclose (.upTo 3) = .upTo 3 := by decide

-- src/test/raw_interval/enclose.rs:207
example : (RawInterval.rightOpen 0 3 : RawInterval Int).enclose (.upFrom 3) = .frm 0 := by decide

-- src/test/raw_interval/enclose.rs:208
example : (RawInterval.rightOpen 0 3 : RawInterval Int).enclose (.to 3) = .to 3 := by decide

-- src/test/raw_interval/enclose.rs:209
example : (RawInterval.rightOpen 0 3 : RawInterval Int).enclose (.frm 3) = .frm 0 := by decide

-- src/test/raw_interval/enclose.rs:210
example : (RawInterval.rightOpen 0 3 : RawInterval Int).enclose .full = .full := by decide

-- src/test/raw_interval/enclose.rs:217
example : (RawInterval.rightOpen 0 3 : RawInterval Int).enclose .empty = .rightOpen 0 3 := by decide

-- src/test/raw_interval/enclose.rs:218
example : (RawInterval.rightOpen 0 3 : RawInterval Int).enclose (.point (-3)) = .rightOpen (-3) 3 := by decide

-- src/test/raw_interval/enclose.rs:219
example : (RawInterval.rightOpen 0 3 : RawInterval Int).enclose (.opn (-3) (-1)) = .opn (-3) 3 := by decide

-- src/test/raw_interval/enclose.rs:220
example : (RawInterval.rightOpen 0 3 : RawInterval Int).enclose (.leftOpen (-3) (-1)) = .opn (-3) 3 := by decide

-- src/test/raw_interval/enclose.rs:221
example : (RawInterval.rightOpen 0 3 : RawInterval Int).enclose (.rightOpen (-3) (-1)) = .rightOpen (-3) 3 := by decide

-- src/test/raw_interval/enclose.rs:222
example : (RawInterval.rightOpen 0 3 : RawInterval Int).enclose (.closed (-3) (-1)) = .rightOpen (-3) 3 := by decide

-- src/test/raw_interval/enclose.rs:223
example : (RawInterval.rightOpen 0 3 : RawInterval Int).enclose (.upTo (-3)) = .upTo 3 := by decide

-- src/test/raw_interval/enclose.rs:224
example : (RawInterval.rightOpen 0 3 : RawInterval Int).enclose (.upFrom (-3)) = .upFrom (-3) := by decide

-- src/test/raw_interval/enclose.rs:225
example : (RawInterval.rightOpen 0 3 : RawInterval Int).enclose (.to (-3)) = .upTo 3 := by decide

-- src/test/raw_interval/enclose.rs:226
example : (RawInterval.rightOpen 0 3 : RawInterval Int).enclose (.frm (-3)) = .frm (-3) := by decide

-- src/test/raw_interval/enclose.rs:227
example : (RawInterval.rightOpen 0 3 : RawInterval Int).enclose .full = .full := by decide

-- src/test/raw_interval/enclose.rs:234
example : (RawInterval.rightOpen 0 3 : RawInterval Int).enclose .empty = .rightOpen 0 3 := by decide

-- src/test/raw_interval/enclose.rs:235
example : (RawInterval.rightOpen 0 3 : RawInterval Int).enclose (.point 13) = .closed 0 13 := by decide

-- src/test/raw_interval/enclose.rs:236
example : (RawInterval.rightOpen 0 3 : RawInterval Int).enclose (.opn 10 13) = .rightOpen 0 13 := by decide

-- src/test/raw_interval/enclose.rs:237
example : (RawInterval.rightOpen 0 3 : RawInterval Int).enclose (.leftOpen 10 13) = .closed 0 13 := by decide

-- src/test/raw_interval/enclose.rs:238
example : (RawInterval.rightOpen 0 3 : RawInterval Int).enclose (.rightOpen 10 13) = .rightOpen 0 13 := by decide

-- src/test/raw_interval/enclose.rs:239
example : (RawInterval.rightOpen 0 3 : RawInterval Int).enclose (.closed 10 13) = .closed 0 13 := by decide

-- src/test/raw_interval/enclose.rs:240
example : (RawInterval.rightOpen 0 3 : RawInterval Int).enclose (.upTo 13) = .upTo 13 := by decide

-- src/test/raw_interval/enclose.rs:241
example : (RawInterval.rightOpen 0 3 : RawInterval Int).enclose (.upFrom 13) = .frm 0 := by decide

-- src/test/raw_interval/enclose.rs:242
example : (RawInterval.rightOpen 0 3 : RawInterval Int).enclose (.to 13) = .to 13 := by decide

-- src/test/raw_interval/enclose.rs:243
example : (RawInterval.rightOpen 0 3 : RawInterval Int).enclose (.frm 13) = .frm 0 := by decide

-- src/test/raw_interval/enclose.rs:244
example : (RawInterval.rightOpen 0 3 : RawInterval Int).enclose .full = .full := by decide

-- src/test/raw_interval/enclose.rs:251
example : (RawInterval.closed 0 3 : RawInterval Int).enclose .empty = .closed 0 3 := by decide

-- src/test/raw_interval/enclose.rs:252
example : (RawInterval.closed 0 3 : RawInterval Int).enclose (.point 3) = .closed 0 3 := by decide

-- src/test/raw_interval/enclose.rs:253
example : (RawInterval.closed 0 3 : RawInterval Int).enclose (.opn 0 3) = .closed 0 3 := by decide

-- src/test/raw_interval/enclose.rs:254
example : (RawInterval.closed 0 3 : RawInterval Int).enclose (.leftOpen 0 3) = .closed 0 3 := by decide

-- src/test/raw_interval/enclose.rs:255
example : (RawInterval.closed 0 3 : RawInterval Int).enclose (.rightOpen 0 3) = .closed 0 3 := by decide

-- src/test/raw_interval/enclose.rs:256
example : (RawInterval.closed 0 3 : RawInterval Int).enclose (.closed 0 3) = .closed 0 3 := by decide

-- src/test/raw_interval/enclose.rs:257
example : (RawInterval.closed 0 3 : RawInterval Int).enclose (.upTo 3) = .to 3 := by decide

-- src/test/raw_interval/enclose.rs:258
example : (RawInterval.closed 0 3 : RawInterval Int).enclose (.upFrom 3) = .frm 0 := by decide

-- src/test/raw_interval/enclose.rs:259
example : (RawInterval.closed 0 3 : RawInterval Int).enclose (.to 3) = .to 3 := by decide

-- src/test/raw_interval/enclose.rs:260
example : (RawInterval.closed 0 3 : RawInterval Int).enclose (.frm 3) = .frm 0 := by decide

-- src/test/raw_interval/enclose.rs:261
example : (RawInterval.closed 0 3 : RawInterval Int).enclose .full = .full := by decide

-- src/test/raw_interval/enclose.rs:268
example : (RawInterval.closed 0 3 : RawInterval Int).enclose .empty = .closed 0 3 := by decide

-- src/test/raw_interval/enclose.rs:269
example : (RawInterval.closed 0 3 : RawInterval Int).enclose (.point (-3)) = .closed (-3) 3 := by decide

-- src/test/raw_interval/enclose.rs:270
example : (RawInterval.closed 0 3 : RawInterval Int).enclose (.opn (-3) (-1)) = .leftOpen (-3) 3 := by decide

-- src/test/raw_interval/enclose.rs:271
example : (RawInterval.closed 0 3 : RawInterval Int).enclose (.leftOpen (-3) (-1)) = .leftOpen (-3) 3 := by decide

-- src/test/raw_interval/enclose.rs:272
example : (RawInterval.closed 0 3 : RawInterval Int).enclose (.rightOpen (-3) (-1)) = .closed (-3) 3 := by decide

-- src/test/raw_interval/enclose.rs:273
example : (RawInterval.closed 0 3 : RawInterval Int).enclose (.closed (-3) (-1)) = .closed (-3) 3 := by decide

-- src/test/raw_interval/enclose.rs:274
example : (RawInterval.closed 0 3 : RawInterval Int).enclose (.upTo (-3)) = .to 3 := by decide

-- src/test/raw_interval/enclose.rs:275
example : (RawInterval.closed 0 3 : RawInterval Int).enclose (.upFrom (-3)) = .upFrom (-3) := by decide

-- src/test/raw_interval/enclose.rs:276
example : (RawInterval.closed 0 3 : RawInterval Int).enclose (.to (-3)) = .to 3 := by decide

-- src/test/raw_interval/enclose.rs:277
example : (RawInterval.closed 0 3 : RawInterval Int).enclose (.frm (-3)) = .frm (-3) := by decide

-- src/test/raw_interval/enclose.rs:278
example : (RawInterval.closed 0 3 : RawInterval Int).enclose .full = .full := by decide

-- src/test/raw_interval/enclose.rs:285
example : (RawInterval.closed 0 3 : RawInterval Int).enclose .empty = .closed 0 3 := by decide

-- src/test/raw_interval/enclose.rs:286
example : (RawInterval.closed 0 3 : RawInterval Int).enclose (.point 13) = .closed 0 13 := by decide

-- src/test/raw_interval/enclose.rs:287
example : (RawInterval.closed 0 3 : RawInterval Int).enclose (.opn 10 13) = .rightOpen 0 13 := by decide

-- src/test/raw_interval/enclose.rs:288
example : (RawInterval.closed 0 3 : RawInterval Int).enclose (.leftOpen 10 13) = .closed 0 13 := by decide

-- src/test/raw_interval/enclose.rs:289
example : (RawInterval.closed 0 3 : RawInterval Int).enclose (.rightOpen 10 13) = .rightOpen 0 13 := by decide

-- src/test/raw_interval/enclose.rs:290
example : (RawInterval.closed 0 3 : RawInterval Int).enclose (.closed 10 13) = .closed 0 13 := by decide

-- src/test/raw_interval/enclose.rs:291
example : (RawInterval.closed 0 3 : RawInterval Int).enclose (.upTo 13) = .upTo 13 := by decide

-- src/test/raw_interval/enclose.rs:292
example : (RawInterval.closed 0 3 : RawInterval Int).enclose (.upFrom 13) = .frm 0 := by decide

-- src/test/raw_interval/enclose.rs:293
example : (RawInterval.closed 0 3 : RawInterval Int).enclose (.to 13) = .to 13 := by decide

-- src/test/raw_interval/enclose.rs:294
example : (RawInterval.closed 0 3 : RawInterval Int).enclose (.frm 13) = .frm 0 := by decide

-- src/test/raw_interval/enclose.rs:295
example : (RawInterval.closed 0 3 : RawInterval Int).enclose .full = .full := by decide

-- src/test/raw_interval/enclose.rs:302
example : (RawInterval.upTo 3 : RawInterval Int).enclose .empty = .upTo 3 := by decide

-- src/test/raw_interval/enclose.rs:303
example : (RawInterval.upTo 3 : RawInterval Int).enclose (.point 3) = .to 3 := by decide

-- src/test/raw_interval/enclose.rs:304
example : (RawInterval.upTo 3 : RawInterval Int).enclose (.opn 0 3) = .upTo 3 := by decide

-- src/test/raw_interval/enclose.rs:305
example : (RawInterval.upTo 3 : RawInterval Int).enclose (.leftOpen 0 3) = .to 3 := by decide

-- src/test/raw_interval/enclose.rs:306
example : (RawInterval.upTo 3 : RawInterval Int).enclose (.rightOpen 0 3) = .upTo 3 := by decide

-- src/test/raw_interval/enclose.rs:307
example : (RawInterval.upTo 3 : RawInterval Int).enclose (.closed 0 3) = .to 3 := by decide

-- src/test/raw_interval/enclose.rs:308
example : (RawInterval.upTo 3 : RawInterval Int).enclose (.upTo 3) = .upTo 3 := by decide

-- src/test/raw_interval/enclose.rs:309
example : (RawInterval.upTo 3 : RawInterval Int).enclose (.upFrom 3) = .full := by decide

-- src/test/raw_interval/enclose.rs:310
example : (RawInterval.upTo 3 : RawInterval Int).enclose (.to 3) = .to 3 := by decide

-- src/test/raw_interval/enclose.rs:311
example : (RawInterval.upTo 3 : RawInterval Int).enclose (.frm 3) = .full := by decide

-- src/test/raw_interval/enclose.rs:312
example : (RawInterval.upTo 3 : RawInterval Int).enclose .full = .full := by decide

-- src/test/raw_interval/enclose.rs:319
example : (RawInterval.upTo 3 : RawInterval Int).enclose .empty = .upTo 3 := by decide

-- src/test/raw_interval/enclose.rs:320
example : (RawInterval.upTo 3 : RawInterval Int).enclose (.point (-3)) = .upTo 3 := by decide

-- src/test/raw_interval/enclose.rs:321
example : (RawInterval.upTo 3 : RawInterval Int).enclose (.opn (-3) (-1)) = .upTo 3 := by decide

-- src/test/raw_interval/enclose.rs:322
example : (RawInterval.upTo 3 : RawInterval Int).enclose (.leftOpen (-3) (-1)) = .upTo 3 := by decide

-- src/test/raw_interval/enclose.rs:323
example : (RawInterval.upTo 3 : RawInterval Int).enclose (.rightOpen (-3) (-1)) = .upTo 3 := by decide

-- src/test/raw_interval/enclose.rs:324
example : (RawInterval.upTo 3 : RawInterval Int).enclose (.closed (-3) (-1)) = .upTo 3 := by decide

-- src/test/raw_interval/enclose.rs:325
example : (RawInterval.upTo 3 : RawInterval Int).enclose (.upTo (-3)) = .upTo 3 := by decide

-- src/test/raw_interval/enclose.rs:326
example : (RawInterval.upTo 3 : RawInterval Int).enclose (.upFrom (-3)) = .full := by decide

-- src/test/raw_interval/enclose.rs:327
example : (RawInterval.upTo 3 : RawInterval Int).enclose (.to (-3)) = .upTo 3 := by decide

-- src/test/raw_interval/enclose.rs:328
example : (RawInterval.upTo 3 : RawInterval Int).enclose (.frm (-3)) = .full := by decide

-- src/test/raw_interval/enclose.rs:329
example : (RawInterval.upTo 3 : RawInterval Int).enclose .full = .full := by decide

-- src/test/raw_interval/enclose.rs:336
example : (RawInterval.upTo 3 : RawInterval Int).enclose .empty = .upTo 3 := by decide

-- src/test/raw_interval/enclose.rs:337
example : (RawInterval.upTo 3 : RawInterval Int).enclose (.point 13) = .to 13 := by decide

-- src/test/raw_interval/enclose.rs:338
example : (RawInterval.upTo 3 : RawInterval Int).enclose (.opn 10 13) = .upTo 13 := by decide

-- src/test/raw_interval/enclose.rs:339
example : (RawInterval.upTo 3 : RawInterval Int).enclose (.leftOpen 10 13) = .to 13 := by decide

-- src/test/raw_interval/enclose.rs:340
example : (RawInterval.upTo 3 : RawInterval Int).enclose (.rightOpen 10 13) = .upTo 13 := by decide

-- src/test/raw_interval/enclose.rs:341
example : (RawInterval.upTo 3 : RawInterval Int).enclose (.closed 10 13) = .to 13 := by decide

-- src/test/raw_interval/enclose.rs:342
example : (RawInterval.upTo 3 : RawInterval Int).enclose (.upTo 13) = .upTo 13 := by decide

-- src/test/raw_interval/enclose.rs:343
example : (RawInterval.upTo 3 : RawInterval Int).enclose (.upFrom 13) = .full := by decide

-- src/test/raw_interval/enclose.rs:344
example : (RawInterval.upTo 3 : RawInterval Int).enclose (.to 13) = .to 13 := by decide

-- src/test/raw_interval/enclose.rs:345
example : (RawInterval.upTo 3 : RawInterval Int).enclose (.frm 13) = .full := by decide

-- src/test/raw_interval/enclose.rs:346
example : (RawInterval.upTo 3 : RawInterval Int).enclose .full = .full := by decide

-- src/test/raw_interval/enclose.rs:354
example : (RawInterval.upFrom 0 : RawInterval Int).enclose .empty = .upFrom 0 := by decide

-- src/test/raw_interval/enclose.rs:355
example : (RawInterval.upFrom 0 : RawInterval Int).enclose (.point 0) = .frm 0 := by decide

-- src/test/raw_interval/enclose.rs:356
example : (RawInterval.upFrom 0 : RawInterval Int).enclose (.opn 0 3) = .upFrom 0 := by decide

-- src/test/raw_interval/enclose.rs:357
example : (RawInterval.upFrom 0 : RawInterval Int).enclose (.leftOpen 0 3) = .upFrom 0 := by decide

-- src/test/raw_interval/enclose.rs:358
example : (RawInterval.upFrom 0 : RawInterval Int).enclose (.rightOpen 0 3) = .frm 0 := by decide

-- src/test/raw_interval/enclose.rs:359
example : (RawInterval.upFrom 0 : RawInterval Int).enclose (.closed 0 3) = .frm 0 := by decide

-- src/test/raw_interval/enclose.rs:360
example : (RawInterval.upFrom 0 : RawInterval Int).enclose (.upTo 0) = .full := by decide

-- src/test/raw_interval/enclose.rs:361
example : (RawInterval.upFrom 0 : RawInterval Int).enclose (.upFrom 0) = .upFrom 0 := by decide

-- src/test/raw_interval/enclose.rs:362
example : (RawInterval.upFrom 0 : RawInterval Int).enclose (.to 0) = .full := by decide

-- src/test/raw_interval/enclose.rs:363
example : (RawInterval.upFrom 0 : RawInterval Int).enclose (.frm 0) = .frm 0 := by decide

-- src/test/raw_interval/enclose.rs:364
example : (RawInterval.upFrom 0 : RawInterval Int).enclose .full = .full := by decide

-- src/test/raw_interval/enclose.rs:371
example : (RawInterval.upFrom 0 : RawInterval Int).enclose .empty = .upFrom 0 := by decide

-- src/test/raw_interval/enclose.rs:372
example : (RawInterval.upFrom 0 : RawInterval Int).enclose (.point (-3)) = .frm (-3) := by decide

-- src/test/raw_interval/enclose.rs:373
example : (RawInterval.upFrom 0 : RawInterval Int).enclose (.opn (-3) (-1)) = .upFrom (-3) := by decide

-- src/test/raw_interval/enclose.rs:374
example : (RawInterval.upFrom 0 : RawInterval Int).enclose (.leftOpen (-3) (-1)) = .upFrom (-3) := by decide

-- src/test/raw_interval/enclose.rs:375
example : (RawInterval.upFrom 0 : RawInterval Int).enclose (.rightOpen (-3) (-1)) = .frm (-3) := by decide

-- src/test/raw_interval/enclose.rs:376
example : (RawInterval.upFrom 0 : RawInterval Int).enclose (.closed (-3) (-1)) = .frm (-3) := by decide

-- src/test/raw_interval/enclose.rs:377
example : (RawInterval.upFrom 0 : RawInterval Int).enclose (.upTo (-3)) = .full := by decide

-- src/test/raw_interval/enclose.rs:378
example : (RawInterval.upFrom 0 : RawInterval Int).enclose (.upFrom (-3)) = .upFrom (-3) := by decide

-- src/test/raw_interval/enclose.rs:379
example : (RawInterval.upFrom 0 : RawInterval Int).enclose (.to (-3)) = .full := by decide

-- src/test/raw_interval/enclose.rs:380
example : (RawInterval.upFrom 0 : RawInterval Int).enclose (.frm (-3)) = .frm (-3) := by decide

-- src/test/raw_interval/enclose.rs:381
example : (RawInterval.upFrom 0 : RawInterval Int).enclose .full = .full := by decide

-- src/test/raw_interval/enclose.rs:388
example : (RawInterval.upFrom 0 : RawInterval Int).enclose .empty = .upFrom 0 := by decide

-- src/test/raw_interval/enclose.rs:389
example : (RawInterval.upFrom 0 : RawInterval Int).enclose (.point 13) = .upFrom 0 := by decide

-- src/test/raw_interval/enclose.rs:390
example : (RawInterval.upFrom 0 : RawInterval Int).enclose (.opn 10 13) = .upFrom 0 := by decide

-- src/test/raw_interval/enclose.rs:391
example : (RawInterval.upFrom 0 : RawInterval Int).enclose (.leftOpen 10 13) = .upFrom 0 := by decide

-- src/test/raw_interval/enclose.rs:392
example : (RawInterval.upFrom 0 : RawInterval Int).enclose (.rightOpen 10 13) = .upFrom 0 := by decide

-- src/test/raw_interval/enclose.rs:393
example : (RawInterval.upFrom 0 : RawInterval Int).enclose (.closed 10 13) = .upFrom 0 := by decide

-- src/test/raw_interval/enclose.rs:394
example : (RawInterval.upFrom 0 : RawInterval Int).enclose (.upTo 13) = .full := by decide

-- src/test/raw_interval/enclose.rs:395
example : (RawInterval.upFrom 0 : RawInterval Int).enclose (.upFrom 13) = .upFrom 0 := by decide

-- src/test/raw_interval/enclose.rs:396
example : (RawInterval.upFrom 0 : RawInterval Int).enclose (.to 13) = .full := by decide

-- src/test/raw_interval/enclose.rs:397
example : (RawInterval.upFrom 0 : RawInterval Int).enclose (.frm 13) = .upFrom 0 := by decide

-- src/test/raw_interval/enclose.rs:398
example : (RawInterval.upFrom 0 : RawInterval Int).enclose .full = .full := by decide

-- src/test/raw_interval/enclose.rs:405
example : (RawInterval.to 3 : RawInterval Int).enclose .empty = .to 3 := by decide

-- src/test/raw_interval/enclose.rs:406
example : (RawInterval.to 3 : RawInterval Int).enclose (.point 3) = .to 3 := by decide

-- src/test/raw_interval/enclose.rs:407
example : (RawInterval.to 3 : RawInterval Int).enclose (.opn 0 3) = .to 3 := by decide

-- src/test/raw_interval/enclose.rs:408
example : (RawInterval.to 3 : RawInterval Int).enclose (.leftOpen 0 3) = .to 3 := by decide

-- src/test/raw_interval/enclose.rs:409
example : (RawInterval.to 3 : RawInterval Int).enclose (.rightOpen 0 3) = .to 3 := by decide

-- src/test/raw_interval/enclose.rs:410
example : (RawInterval.to 3 : RawInterval Int).enclose (.closed 0 3) = .to 3 := by decide

-- src/test/raw_interval/enclose.rs:411
example : (RawInterval.to 3 : RawInterval Int).enclose (.upTo 3) = .to 3 := by decide

-- src/test/raw_interval/enclose.rs:412
example : (RawInterval.to 3 : RawInterval Int).enclose (.upFrom 3) = .full := by decide

-- src/test/raw_interval/enclose.rs:413
example : (RawInterval.to 3 : RawInterval Int).enclose (.to 3) = .to 3 := by decide

-- src/test/raw_interval/enclose.rs:414
example : (RawInterval.to 3 : RawInterval Int).enclose (.frm 3) = .full := by decide

-- src/test/raw_interval/enclose.rs:415
example : (RawInterval.to 3 : RawInterval Int).enclose .full = .full := by decide

-- src/test/raw_interval/enclose.rs:422
example : (RawInterval.to 3 : RawInterval Int).enclose .empty = .to 3 := by decide

-- src/test/raw_interval/enclose.rs:423
example : (RawInterval.to 3 : RawInterval Int).enclose (.point (-3)) = .to 3 := by decide

-- src/test/raw_interval/enclose.rs:424
example : (RawInterval.to 3 : RawInterval Int).enclose (.opn (-3) (-1)) = .to 3 := by decide

-- src/test/raw_interval/enclose.rs:425
example : (RawInterval.to 3 : RawInterval Int).enclose (.leftOpen (-3) (-1)) = .to 3 := by decide

-- src/test/raw_interval/enclose.rs:426
example : (RawInterval.to 3 : RawInterval Int).enclose (.rightOpen (-3) (-1)) = .to 3 := by decide

-- src/test/raw_interval/enclose.rs:427
example : (RawInterval.to 3 : RawInterval Int).enclose (.closed (-3) (-1)) = .to 3 := by decide

-- src/test/raw_interval/enclose.rs:428
example : (RawInterval.to 3 : RawInterval Int).enclose (.upTo (-3)) = .to 3 := by decide

-- src/test/raw_interval/enclose.rs:429
example : (RawInterval.to 3 : RawInterval Int).enclose (.upFrom (-3)) = .full := by decide

-- src/test/raw_interval/enclose.rs:430
example : (RawInterval.to 3 : RawInterval Int).enclose (.to (-3)) = .to 3 := by decide

-- src/test/raw_interval/enclose.rs:431
example : (RawInterval.to 3 : RawInterval Int).enclose (.frm (-3)) = .full := by decide

-- src/test/raw_interval/enclose.rs:432
example : (RawInterval.to 3 : RawInterval Int).enclose .full = .full := by decide

-- src/test/raw_interval/enclose.rs:439
example : (RawInterval.to 3 : RawInterval Int).enclose .empty = .to 3 := by decide

-- src/test/raw_interval/enclose.rs:440
example : (RawInterval.to 3 : RawInterval Int).enclose (.point 13) = .to 13 := by decide

-- src/test/raw_interval/enclose.rs:441
example : (RawInterval.to 3 : RawInterval Int).enclose (.opn 10 13) = .upTo 13 := by decide

-- src/test/raw_interval/enclose.rs:442
example : (RawInterval.to 3 : RawInterval Int).enclose (.leftOpen 10 13) = .to 13 := by decide

-- src/test/raw_interval/enclose.rs:443
example : (RawInterval.to 3 : RawInterval Int).enclose (.rightOpen 10 13) = .upTo 13 := by decide

-- src/test/raw_interval/enclose.rs:444
example : (RawInterval.to 3 : RawInterval Int).enclose (.closed 10 13) = .to 13 := by decide

-- src/test/raw_interval/enclose.rs:445
example : (RawInterval.to 3 : RawInterval Int).enclose (.upTo 13) = .upTo 13 := by decide

-- src/test/raw_interval/enclose.rs:446
example : (RawInterval.to 3 : RawInterval Int).enclose (.upFrom 13) = .full := by decide

-- src/test/raw_interval/enclose.rs:447
example : (RawInterval.to 3 : RawInterval Int).enclose (.to 13) = .to 13 := by decide

-- src/test/raw_interval/enclose.rs:448
example : (RawInterval.to 3 : RawInterval Int).enclose (.frm 13) = .full := by decide

-- src/test/raw_interval/enclose.rs:449
example : (RawInterval.to 3 : RawInterval Int).enclose .full = .full := by decide

-- src/test/raw_interval/enclose.rs:456
example : (RawInterval.frm 0 : RawInterval Int).enclose .empty = .frm 0 := by decide

-- src/test/raw_interval/enclose.rs:457
example : (RawInterval.frm 0 : RawInterval Int).enclose (.point 0) = .frm 0 := by decide

-- src/test/raw_interval/enclose.rs:458
example : (RawInterval.frm 0 : RawInterval Int).enclose (.opn 0 3) = .frm 0 := by decide

-- src/test/raw_interval/enclose.rs:459
example : (RawInterval.frm 0 : RawInterval Int).enclose (.leftOpen 0 3) = .frm 0 := by decide

-- src/test/raw_interval/enclose.rs:460
example : (RawInterval.frm 0 : RawInterval Int).enclose (.rightOpen 0 3) = .frm 0 := by decide

-- src/test/raw_interval/enclose.rs:461
example : (RawInterval.frm 0 : RawInterval Int).enclose (.closed 0 3) = .frm 0 := by decide

-- src/test/raw_interval/enclose.rs:462
example : (RawInterval.frm 0 : RawInterval Int).enclose (.upTo 0) = .full := by decide

-- src/test/raw_interval/enclose.rs:463
example : (RawInterval.frm 0 : RawInterval Int).enclose (.upFrom 0) = .frm 0 := by decide

-- src/test/raw_interval/enclose.rs:464
example : (RawInterval.frm 0 : RawInterval Int).enclose (.to 0) = .full := by decide

-- src/test/raw_interval/enclose.rs:465
example : (RawInterval.frm 0 : RawInterval Int).enclose (.frm 0) = .frm 0 := by decide

-- src/test/raw_interval/enclose.rs:466
example : (RawInterval.frm 0 : RawInterval Int).enclose .full = .full := by decide

-- src/test/raw_interval/enclose.rs:473
example : (RawInterval.frm 0 : RawInterval Int).enclose .empty = .frm 0 := by decide

-- src/test/raw_interval/enclose.rs:474
example : (RawInterval.frm 0 : RawInterval Int).enclose (.point (-3)) = .frm (-3) := by decide

-- src/test/raw_interval/enclose.rs:475
example : (RawInterval.frm 0 : RawInterval Int).enclose (.opn (-3) (-1)) = .upFrom (-3) := by decide

-- src/test/raw_interval/enclose.rs:476
example : (RawInterval.frm 0 : RawInterval Int).enclose (.leftOpen (-3) (-1)) = .upFrom (-3) := by decide

-- src/test/raw_interval/enclose.rs:477
example : (RawInterval.frm 0 : RawInterval Int).enclose (.rightOpen (-3) (-1)) = .frm (-3) := by decide

-- src/test/raw_interval/enclose.rs:478
example : (RawInterval.frm 0 : RawInterval Int).enclose (.closed (-3) (-1)) = .frm (-3) := by decide

-- src/test/raw_interval/enclose.rs:479
example : (RawInterval.frm 0 : RawInterval Int).enclose (.upTo (-3)) = .full := by decide

-- src/test/raw_interval/enclose.rs:480
example : (RawInterval.frm 0 : RawInterval Int).enclose (.upFrom (-3)) = .upFrom (-3) := by decide

-- src/test/raw_interval/enclose.rs:481
example : (RawInterval.frm 0 : RawInterval Int).enclose (.to (-3)) = .full := by decide

-- src/test/raw_interval/enclose.rs:482
example : (RawInterval.frm 0 : RawInterval Int).enclose (.frm (-3)) = .frm (-3) := by decide

-- src/test/raw_interval/enclose.rs:483
example : (RawInterval.frm 0 : RawInterval Int).enclose .full = .full := by decide

-- src/test/raw_interval/enclose.rs:490
example : (RawInterval.frm 0 : RawInterval Int).enclose .empty = .frm 0 := by decide

-- src/test/raw_interval/enclose.rs:491
example : (RawInterval.frm 0 : RawInterval Int).enclose (.point 13) = .frm 0 := by decide

-- src/test/raw_interval/enclose.rs:492
example : (RawInterval.frm 0 : RawInterval Int).enclose (.opn 10 13) = .frm 0 := by decide

-- src/test/raw_interval/enclose.rs:493
example : (RawInterval.frm 0 : RawInterval Int).enclose (.leftOpen 10 13) = .frm 0 := by decide

-- src/test/raw_interval/enclose.rs:494
example : (RawInterval.frm 0 : RawInterval Int).enclose (.rightOpen 10 13) = .frm 0 := by decide

-- src/test/raw_interval/enclose.rs:495
example : (RawInterval.frm 0 : RawInterval Int).enclose (.closed 10 13) = .frm 0 := by decide

-- src/test/raw_interval/enclose.rs:496
example : (RawInterval.frm 0 : RawInterval Int).enclose (.upTo 13) = .full := by decide

-- src/test/raw_interval/enclose.rs:497
example : (RawInterval.frm 0 : RawInterval Int).enclose (.upFrom 13) = .frm 0 := by decide

-- src/test/raw_interval/enclose.rs:498
example : (RawInterval.frm 0 : RawInterval Int).enclose (.to 13) = .full := by decide

-- src/test/raw_interval/enclose.rs:499
example : (RawInterval.frm 0 : RawInterval Int).enclose (.frm 13) = .frm 0 := by decide

-- src/test/raw_interval/enclose.rs:500
example : (RawInterval.frm 0 : RawInterval Int).enclose .full = .full := by decide

-- src/test/raw_interval/enclose.rs:507
example : (RawInterval.full : RawInterval Int).enclose .empty = .full := by decide

-- src/test/raw_interval/enclose.rs:508
example : (RawInterval.full : RawInterval Int).enclose (.point 0) = .full := by decide

-- src/test/raw_interval/enclose.rs:509
example : (RawInterval.full : RawInterval Int).enclose (.opn 0 3) = .full := by decide

-- src/test/raw_interval/enclose.rs:510
example : (RawInterval.full : RawInterval Int).enclose (.leftOpen 0 3) = .full := by decide

-- src/test/raw_interval/enclose.rs:511
example : (RawInterval.full : RawInterval Int).enclose (.rightOpen 0 3) = .full := by decide

-- src/test/raw_interval/enclose.rs:512
example : (RawInterval.full : RawInterval Int).enclose (.closed 0 3) = .full := by decide

-- src/test/raw_interval/enclose.rs:513
example : (RawInterval.full : RawInterval Int).enclose (.upTo 0) = .full := by decide

-- src/test/raw_interval/enclose.rs:514
example : (RawInterval.full : RawInterval Int).enclose (.upFrom 0) = .full := by decide

-- src/test/raw_interval/enclose.rs:515
example : (RawInterval.full : RawInterval Int).enclose (.to 0) = .full := by decide

-- src/test/raw_interval/enclose.rs:516
example : (RawInterval.full : RawInterval Int).enclose (.frm 0) = .full := by decide

-- src/test/raw_interval/enclose.rs:517
example : (RawInterval.full : RawInterval Int).enclose .full = .full := by decide

-- src/test/raw_interval/intersect.rs:30
example : (RawInterval.empty : RawInterval Int).intersect .empty = .empty := by decide

-- src/test/raw_interval/intersect.rs:31
example : (RawInterval.empty : RawInterval Int).intersect (.point 3) = .empty := by decide

-- src/test/raw_interval/intersect.rs:32
example : (RawInterval.empty : RawInterval Int).intersect (.opn 0 3) = .empty := by decide

-- src/test/raw_interval/intersect.rs:33
example : (RawInterval.empty : RawInterval Int).intersect (.leftOpen 0 3) = .empty := by decide

-- src/test/raw_interval/intersect.rs:34
example : (RawInterval.empty : RawInterval Int).intersect (.rightOpen 0 3) = .empty := by decide

-- src/test/raw_interval/intersect.rs:35
example : (RawInterval.empty : RawInterval Int).intersect (.closed 0 3) = .empty := by decide

-- src/test/raw_interval/intersect.rs:36
example : (RawInterval.empty : RawInterval Int).intersect (.upTo 3) = .empty := by decide

-- src/test/raw_interval/intersect.rs:37
example : (RawInterval.empty : RawInterval Int).intersect (.upFrom 3) = .empty := by decide

-- src/test/raw_interval/intersect.rs:38
example : (RawInterval.empty : RawInterval Int).intersect (.to 3) = .empty := by decide

-- src/test/raw_interval/intersect.rs:39
example : (RawInterval.empty : RawInterval Int).intersect (.frm 3) = .empty := by decide

-- src/test/raw_interval/intersect.rs:40
example : (RawInterval.empty : RawInterval Int).intersect .full = .empty := by decide

-- src/test/raw_interval/intersect.rs:47
example : (RawInterval.point 2 : RawInterval Int).intersect .empty = .empty := by decide

-- src/test/raw_interval/intersect.rs:48
example : (RawInterval.point 2 : RawInterval Int).intersect (.point 2) = .point 2 := by decide

-- src/test/raw_interval/intersect.rs:49
example : (RawInterval.point 2 : RawInterval Int).intersect (.opn 0 3) = .point 2 := by decide

-- src/test/raw_interval/intersect.rs:50
example : (RawInterval.point 2 : RawInterval Int).intersect (.leftOpen 0 3) = .point 2 := by decide

-- src/test/raw_interval/intersect.rs:51
example : (RawInterval.point 2 : RawInterval Int).intersect (.rightOpen 0 3) = .point 2 := by decide

-- src/test/raw_interval/intersect.rs:52
example : (RawInterval.point 2 : RawInterval Int).intersect (.closed 0 3) = .point 2 := by decide

-- src/test/raw_interval/intersect.rs:53
example : (RawInterval.point 2 : RawInterval Int).intersect (.upTo 2) = .empty := by decide

-- src/test/raw_interval/intersect.rs:54
example : (RawInterval.point 2 : RawInterval Int).intersect (.upFrom 2) = .empty := by decide

-- src/test/raw_interval/intersect.rs:55
example : (RawInterval.point 2 : RawInterval Int).intersect (.to 2) = .point 2 := by decide

-- src/test/raw_interval/intersect.rs:56
example : (RawInterval.point 2 : RawInterval Int).intersect (.frm 2) = .point 2 := by decide

-- src/test/raw_interval/intersect.rs:57
example : (RawInterval.point 2 : RawInterval Int).intersect .full = .point 2 := by decide

-- src/test/raw_interval/intersect.rs:64
example : (RawInterval.point 2 : RawInterval Int).intersect .empty = .empty := by decide

-- src/test/raw_interval/intersect.rs:65
example : (RawInterval.point 2 : RawInterval Int).intersect (.point (-1)) = .empty := by decide

-- src/test/raw_interval/intersect.rs:66
example : (RawInterval.point 2 : RawInterval Int).intersect (.opn (-3) (-1)) = .empty := by decide

-- src/test/raw_interval/intersect.rs:67
example : (RawInterval.point 2 : RawInterval Int).intersect (.leftOpen (-3) (-1)) = .empty := by decide

-- src/test/raw_interval/intersect.rs:68
example : (RawInterval.point 2 : RawInterval Int).intersect (.rightOpen (-3) (-1)) = .empty := by decide

-- src/test/raw_interval/intersect.rs:69
example : (RawInterval.point 2 : RawInterval Int).intersect (.closed (-3) (-1)) = .empty := by decide

-- src/test/raw_interval/intersect.rs:70
example : (RawInterval.point 2 : RawInterval Int).intersect (.upTo (-3)) = .empty := by decide

-- src/test/raw_interval/intersect.rs:71
example : (RawInterval.point 2 : RawInterval Int).intersect (.upFrom (-3)) = .point 2 := by decide

-- src/test/raw_interval/intersect.rs:72
example : (RawInterval.point 2 : RawInterval Int).intersect (.to (-3)) = .empty := by decide

-- src/test/raw_interval/intersect.rs:73
example : (RawInterval.point 2 : RawInterval Int).intersect (.frm (-3)) = .point 2 := by decide

-- src/test/raw_interval/intersect.rs:74
example : (RawInterval.point 2 : RawInterval Int).intersect .full = .point 2 := by decide

-- src/test/raw_interval/intersect.rs:81
example : (RawInterval.point 2 : RawInterval Int).intersect .empty = .empty := by decide

-- src/test/raw_interval/intersect.rs:82
example : (RawInterval.point 2 : RawInterval Int).intersect (.point 10) = .empty := by decide

-- src/test/raw_interval/intersect.rs:83
example : (RawInterval.point 2 : RawInterval Int).intersect (.opn 10 13) = .empty := by decide

-- src/test/raw_interval/intersect.rs:84
example : (RawInterval.point 2 : RawInterval Int).intersect (.leftOpen 10 13) = .empty := by decide

-- src/test/raw_interval/intersect.rs:85
example : (RawInterval.point 2 : RawInterval Int).intersect (.rightOpen 10 13) = .empty := by decide

-- src/test/raw_interval/intersect.rs:86
example : (RawInterval.point 2 : RawInterval Int).intersect (.closed 10 13) = .empty := by decide

-- src/test/raw_interval/intersect.rs:87
example : (RawInterval.point 2 : RawInterval Int).intersect (.upTo 13) = .point 2 := by decide

-- src/test/raw_interval/intersect.rs:88
example : (RawInterval.point 2 : RawInterval Int).intersect (.upFrom 13) = .empty := by decide

-- src/test/raw_interval/intersect.rs:89
example : (RawInterval.point 2 : RawInterval Int).intersect (.to 13) = .point 2 := by decide

-- src/test/raw_interval/intersect.rs:90
example : (RawInterval.point 2 : RawInterval Int).intersect (.frm 13) = .empty := by decide

-- src/test/raw_interval/intersect.rs:91
example : (RawInterval.point 2 : RawInterval Int).intersect .full = .point 2 := by decide

-- src/test/raw_interval/intersect.rs:98
example : (RawInterval.opn 0 3 : RawInterval Int).intersect .empty = .empty := by decide

-- src/test/raw_interval/intersect.rs:99
example : (RawInterval.opn 0 3 : RawInterval Int).intersect (.point 2) = .point 2 := by decide

-- src/test/raw_interval/intersect.rs:100
example : (RawInterval.opn 0 3 : RawInterval Int).intersect (.opn 0 3) = .opn 0 3 := by decide

-- src/test/raw_interval/intersect.rs:101
example : (RawInterval.opn 0 3 : RawInterval Int).intersect (.leftOpen 0 3) = .opn 0 3 := by decide

-- src/test/raw_interval/intersect.rs:102
example : (RawInterval.opn 0 3 : RawInterval Int).intersect (.rightOpen 0 3) = .opn 0 3 := by decide

-- src/test/raw_interval/intersect.rs:103
example : (RawInterval.opn 0 3 : RawInterval Int).intersect (.closed 0 3) = .opn 0 3 := by decide

-- src/test/raw_interval/intersect.rs:104
example : (RawInterval.opn 0 3 : RawInterval Int).intersect (.upTo 2) = .opn 0 2 := by decide

-- src/test/raw_interval/intersect.rs:105
example : (RawInterval.opn 0 3 : RawInterval Int).intersect (.upFrom 2) = .opn 2 3 := by decide

-- src/test/raw_interval/intersect.rs:106
example : (RawInterval.opn 0 3 : RawInterval Int).intersect (.to 2) = .leftOpen 0 2 := by decide

-- src/test/raw_interval/intersect.rs:107
example : (RawInterval.opn 0 3 : RawInterval Int).intersect (.frm 2) = .rightOpen 2 3 := by decide

-- src/test/raw_interval/intersect.rs:108
example : (RawInterval.opn 0 3 : RawInterval Int).intersect .full = .opn 0 3 := by decide

-- src/test/raw_interval/intersect.rs:115
example : (RawInterval.opn 0 3 : RawInterval Int).intersect .empty = .empty := by decide

-- src/test/raw_interval/intersect.rs:116
example : (RawInterval.opn 0 3 : RawInterval Int).intersect (.point (-3)) = .empty := by decide

-- src/test/raw_interval/intersect.rs:117
example : (RawInterval.opn 0 3 : RawInterval Int).intersect (.opn (-3) (-1)) = .empty := by decide

-- src/test/raw_interval/intersect.rs:118
example : (RawInterval.opn 0 3 : RawInterval Int).intersect (.leftOpen (-3) (-1)) = .empty := by decide

-- src/test/raw_interval/intersect.rs:119
example : (RawInterval.opn 0 3 : RawInterval Int).intersect (.rightOpen (-3) (-1)) = .empty := by decide

-- src/test/raw_interval/intersect.rs:120
example : (RawInterval.opn 0 3 : RawInterval Int).intersect (.closed (-3) (-1)) = .empty := by decide

-- src/test/raw_interval/intersect.rs:121
example : (RawInterval.opn 0 3 : RawInterval Int).intersect (.upTo (-3)) = .empty := by decide

-- src/test/raw_interval/intersect.rs:122
example : (RawInterval.opn 0 3 : RawInterval Int).intersect (.upFrom (-3)) = .opn 0 3 := by decide

-- src/test/raw_interval/intersect.rs:123
example : (RawInterval.opn 0 3 : RawInterval Int).intersect (.to (-3)) = .empty := by decide

-- src/test/raw_interval/intersect.rs:124
example : (RawInterval.opn 0 3 : RawInterval Int).intersect (.frm (-3)) = .opn 0 3 := by decide

-- src/test/raw_interval/intersect.rs:125
example : (RawInterval.opn 0 3 : RawInterval Int).intersect .full = .opn 0 3 := by decide

-- src/test/raw_interval/intersect.rs:132
example : (RawInterval.opn 0 3 : RawInterval Int).intersect .empty = .empty := by decide

-- src/test/raw_interval/intersect.rs:133
example : (RawInterval.opn 0 3 : RawInterval Int).intersect (.point 13) = .empty := by decide

-- src/test/raw_interval/intersect.rs:134
example : (RawInterval.opn 0 3 : RawInterval Int).intersect (.opn 10 13) = .empty := by decide

-- src/test/raw_interval/intersect.rs:135
example : (RawInterval.opn 0 3 : RawInterval Int).intersect (.leftOpen 10 13) = .empty := by decide

-- src/test/raw_interval/intersect.rs:136
example : (RawInterval.opn 0 3 : RawInterval Int).intersect (.rightOpen 10 13) = .empty := by decide

-- src/test/raw_interval/intersect.rs:137
example : (RawInterval.opn 0 3 : RawInterval Int).intersect (.closed 10 13) = .empty := by decide

-- src/test/raw_interval/intersect.rs:138
example : (RawInterval.opn 0 3 : RawInterval Int).intersect (.upTo 13) = .opn 0 3 := by decide

-- src/test/raw_interval/intersect.rs:139
example : (RawInterval.opn 0 3 : RawInterval Int).intersect (.upFrom 13) = .empty := by decide

-- src/test/raw_interval/intersect.rs:140
example : (RawInterval.opn 0 3 : RawInterval Int).intersect (.to 13) = .opn 0 3 := by decide

-- src/test/raw_interval/intersect.rs:141
example : (RawInterval.opn 0 3 : RawInterval Int).intersect (.frm 13) = .empty := by decide

-- src/test/raw_interval/intersect.rs:142
example : (RawInterval.opn 0 3 : RawInterval Int).intersect .full = .opn 0 3 := by decide

-- src/test/raw_interval/intersect.rs:149
example : (RawInterval.leftOpen 0 3 : RawInterval Int).intersect .empty = .empty := by decide

-- src/test/raw_interval/intersect.rs:150
example : (RawInterval.leftOpen 0 3 : RawInterval Int).intersect (.point 2) = .point 2 := by decide

-- src/test/raw_interval/intersect.rs:151
example : (RawInterval.leftOpen 0 3 : RawInterval Int).intersect (.opn 0 3) = .opn 0 3 := by decide

-- src/test/raw_interval/intersect.rs:152
example : (RawInterval.leftOpen 0 3 : RawInterval Int).intersect (.leftOpen 0 3) = .leftOpen 0 3 := by decide

-- src/test/raw_interval/intersect.rs:153
example : (RawInterval.leftOpen 0 3 : RawInterval Int).intersect (.rightOpen 0 3) = .opn 0 3 := by decide

-- src/test/raw_interval/intersect.rs:154
example : (RawInterval.leftOpen 0 3 : RawInterval Int).intersect (.closed 0 3) = .leftOpen 0 3 := by decide

-- src/test/raw_interval/intersect.rs:155
example : (RawInterval.leftOpen 0 3 : RawInterval Int).intersect (.upTo 2) = .opn 0 2 := by decide

-- src/test/raw_interval/intersect.rs:156
example : (RawInterval.leftOpen 0 3 : RawInterval Int).intersect (.upFrom 2) = .leftOpen 2 3 := by decide

-- src/test/raw_interval/intersect.rs:157
example : (RawInterval.leftOpen 0 3 : RawInterval Int).intersect (.to 2) = .leftOpen 0 2 := by decide

-- src/test/raw_interval/intersect.rs:158
example : (RawInterval.leftOpen 0 3 : RawInterval Int).intersect (.frm 2) = .closed 2 3 := by decide

-- src/test/raw_interval/intersect.rs:159
example : (RawInterval.leftOpen 0 3 : RawInterval Int).intersect .full = .leftOpen 0 3 := by decide

-- src/test/raw_interval/intersect.rs:166
example : (RawInterval.leftOpen 0 3 : RawInterval Int).intersect .empty = .empty := by decide

-- src/test/raw_interval/intersect.rs:167
example : (RawInterval.leftOpen 0 3 : RawInterval Int).intersect (.point (-3)) = .empty := by decide

-- src/test/raw_interval/intersect.rs:168
example : (RawInterval.leftOpen 0 3 : RawInterval Int).intersect (.opn (-3) (-1)) = .empty := by decide

-- src/test/raw_interval/intersect.rs:169
example : (RawInterval.leftOpen 0 3 : RawInterval Int).intersect (.leftOpen (-3) (-1)) = .empty := by decide

-- src/test/raw_interval/intersect.rs:170
example : (RawInterval.leftOpen 0 3 : RawInterval Int).intersect (.rightOpen (-3) (-1)) = .empty := by decide

-- src/test/raw_interval/intersect.rs:171
example : (RawInterval.leftOpen 0 3 : RawInterval Int).intersect (.closed (-3) (-1)) = .empty := by decide

-- src/test/raw_interval/intersect.rs:172
example : (RawInterval.leftOpen 0 3 : RawInterval Int).intersect (.upTo (-3)) = .empty := by decide

-- src/test/raw_interval/intersect.rs:173
example : (RawInterval.leftOpen 0 3 : RawInterval Int).intersect (.upFrom (-3)) = .leftOpen 0 3 := by decide

-- src/test/raw_interval/intersect.rs:174
example : (RawInterval.leftOpen 0 3 : RawInterval Int).intersect (.to (-3)) = .empty := by decide

-- src/test/raw_interval/intersect.rs:175
example : (RawInterval.leftOpen 0 3 : RawInterval Int).intersect (.frm (-3)) = .leftOpen 0 3 := by decide

-- src/test/raw_interval/intersect.rs:176
example : (RawInterval.leftOpen 0 3 : RawInterval Int).intersect .full = .leftOpen 0 3 := by decide

-- src/test/raw_interval/intersect.rs:183
example : (RawInterval.leftOpen 0 3 : RawInterval Int).intersect .empty = .empty := by decide

-- src/test/raw_interval/intersect.rs:184
example : (RawInterval.leftOpen 0 3 : RawInterval Int).intersect (.point 13) = .empty := by decide

-- src/test/raw_interval/intersect.rs:185
example : (RawInterval.leftOpen 0 3 : RawInterval Int).intersect (.opn 10 13) = .empty := by decide

-- src/test/raw_interval/intersect.rs:186
example : (RawInterval.leftOpen 0 3 : RawInterval Int).intersect (.leftOpen 10 13) = .empty := by decide

-- src/test/raw_interval/intersect.rs:187
example : (RawInterval.leftOpen 0 3 : RawInterval Int).intersect (.rightOpen 10 13) = .empty := by decide

-- src/test/raw_interval/intersect.rs:188
example : (RawInterval.leftOpen 0 3 : RawInterval Int).intersect (.closed 10 13) = .empty := by decide

-- src/test/raw_interval/intersect.rs:189
example : (RawInterval.leftOpen 0 3 : RawInterval Int).intersect (.upTo 13) = .leftOpen 0 3 := by decide

-- src/test/raw_interval/intersect.rs:190
example : (RawInterval.leftOpen 0 3 : RawInterval Int).intersect (.upFrom 13) = .empty := by decide

-- src/test/raw_interval/intersect.rs:191
example : (RawInterval.leftOpen 0 3 : RawInterval Int).intersect (.to 13) = .leftOpen 0 3 := by decide

-- src/test/raw_interval/intersect.rs:192
example : (RawInterval.leftOpen 0 3 : RawInterval Int).intersect (.frm 13) = .empty := by decide

-- src/test/raw_interval/intersect.rs:193
example : (RawInterval.leftOpen 0 3 : RawInterval Int).intersect .full = .leftOpen 0 3 := by decide

-- src/test/raw_interval/intersect.rs:200
example : (RawInterval.rightOpen 0 3 : RawInterval Int).intersect .empty = .empty := by decide

-- src/test/raw_interval/intersect.rs:201
example : (RawInterval.rightOpen 0 3 : RawInterval Int).intersect (.point 2) = .point 2 := by decide

-- src/test/raw_interval/intersect.rs:202
example : (RawInterval.rightOpen 0 3 : RawInterval Int).intersect (.opn 0 3) = .opn 0 3 := by decide

-- src/test/raw_interval/intersect.rs:203
example : (RawInterval.rightOpen 0 3 : RawInterval Int).intersect (.leftOpen 0 3) = .opn 0 3 := by decide

-- src/test/raw_interval/intersect.rs:204
example : (RawInterval.rightOpen 0 3 : RawInterval Int).intersect (.rightOpen 0 3) = .rightOpen 0 3 := by decide

-- src/test/raw_interval/intersect.rs:205
example : (RawInterval.rightOpen 0 3 : RawInterval Int).intersect (.closed 0 3) = .rightOpen 0 3 := by decide

-- src/test/raw_interval/intersect.rs:206
example : (RawInterval.rightOpen 0 3 : RawInterval Int).intersect (.upTo 2) = .rightOpen 0 2 := by decide

-- src/test/raw_interval/intersect.rs:207
example : (RawInterval.rightOpen 0 3 : RawInterval Int).intersect (.upFrom 2) = .opn 2 3 := by decide

-- src/test/raw_interval/intersect.rs:208
example : (RawInterval.rightOpen 0 3 : RawInterval Int).intersect (.to 2) = .closed 0 2 := by decide

-- src/test/raw_interval/intersect.rs:209
example : (RawInterval.rightOpen 0 3 : RawInterval Int).intersect (.frm 2) = .rightOpen 2 3 := by decide

-- src/test/raw_interval/intersect.rs:210
example : (RawInterval.rightOpen 0 3 : RawInterval Int).intersect .full = .rightOpen 0 3 := by decide

-- src/test/raw_interval/intersect.rs:217
example : (RawInterval.rightOpen 0 3 : RawInterval Int).intersect .empty = .empty := by decide

-- src/test/raw_interval/intersect.rs:218
example : (RawInterval.rightOpen 0 3 : RawInterval Int).intersect (.point (-3)) = .empty := by decide

-- src/test/raw_interval/intersect.rs:219
example : (RawInterval.rightOpen 0 3 : RawInterval Int).intersect (.opn (-3) (-1)) = .empty := by decide

-- src/test/raw_interval/intersect.rs:220
example : (RawInterval.rightOpen 0 3 : RawInterval Int).intersect (.leftOpen (-3) (-1)) = .empty := by decide

-- src/test/raw_interval/intersect.rs:221
example : (RawInterval.rightOpen 0 3 : RawInterval Int).intersect (.rightOpen (-3) (-1)) = .empty := by decide

-- src/test/raw_interval/intersect.rs:222
example : (RawInterval.rightOpen 0 3 : RawInterval Int).intersect (.closed (-3) (-1)) = .empty := by decide

-- src/test/raw_interval/intersect.rs:223
example : (RawInterval.rightOpen 0 3 : RawInterval Int).intersect (.upTo (-3)) = .empty := by decide

-- src/test/raw_interval/intersect.rs:224
example : (RawInterval.rightOpen 0 3 : RawInterval Int).intersect (.upFrom (-3)) = .rightOpen 0 3 := by decide

-- src/test/raw_interval/intersect.rs:225
example : (RawInterval.rightOpen 0 3 : RawInterval Int).intersect (.to (-3)) = .empty := by decide

-- src/test/raw_interval/intersect.rs:226
example : (RawInterval.rightOpen 0 3 : RawInterval Int).intersect (.frm (-3)) = .rightOpen 0 3 := by decide

-- src/test/raw_interval/intersect.rs:227
example : (RawInterval.rightOpen 0 3 : RawInterval Int).intersect .full = .rightOpen 0 3 := by decide

-- src/test/raw_interval/intersect.rs:234
example : (RawInterval.rightOpen 0 3 : RawInterval Int).intersect .empty = .empty := by decide

-- src/test/raw_interval/intersect.rs:235
example : (RawInterval.rightOpen 0 3 : RawInterval Int).intersect (.point 13) = .empty := by decide

-- src/test/raw_interval/intersect.rs:236
example : (RawInterval.rightOpen 0 3 : RawInterval Int).intersect (.opn 10 13) = .empty := by decide

-- src/test/raw_interval/intersect.rs:237
example : (RawInterval.rightOpen 0 3 : RawInterval Int).intersect (.leftOpen 10 13) = .empty := by decide

-- src/test/raw_interval/intersect.rs:238
example : (RawInterval.rightOpen 0 3 : RawInterval Int).intersect (.rightOpen 10 13) = .empty := by decide

-- src/test/raw_interval/intersect.rs:239
example : (RawInterval.rightOpen 0 3 : RawInterval Int).intersect (.closed 10 13) = .empty := by decide

-- src/test/raw_interval/intersect.rs:240
example : (RawInterval.rightOpen 0 3 : RawInterval Int).intersect (.upTo 13) = .rightOpen 0 3 := by decide

-- src/test/raw_interval/intersect.rs:241
example : (RawInterval.rightOpen 0 3 : RawInterval Int).intersect (.upFrom 13) = .empty := by decide

-- src/test/raw_interval/intersect.rs:242
example : (RawInterval.rightOpen 0 3 : RawInterval Int).intersect (.to 13) = .rightOpen 0 3 := by decide

-- src/test/raw_interval/intersect.rs:243
example : (RawInterval.rightOpen 0 3 : RawInterval Int).intersect (.frm 13) = .empty := by decide

-- src/test/raw_interval/intersect.rs:244
example : (RawInterval.rightOpen 0 3 : RawInterval Int).intersect .full = .rightOpen 0 3 := by decide

-- src/test/raw_interval/intersect.rs:251
example : (RawInterval.closed 0 3 : RawInterval Int).intersect .empty = .empty := by decide

-- src/test/raw_interval/intersect.rs:252
example : (RawInterval.closed 0 3 : RawInterval Int).intersect (.point 2) = .point 2 := by decide

-- src/test/raw_interval/intersect.rs:253
example : (RawInterval.closed 0 3 : RawInterval Int).intersect (.opn 0 3) = .opn 0 3 := by decide

-- src/test/raw_interval/intersect.rs:254
example : (RawInterval.closed 0 3 : RawInterval Int).intersect (.leftOpen 0 3) = .leftOpen 0 3 := by decide

-- src/test/raw_interval/intersect.rs:255
example : (RawInterval.closed 0 3 : RawInterval Int).intersect (.rightOpen 0 3) = .rightOpen 0 3 := by decide

-- src/test/raw_interval/intersect.rs:256
example : (RawInterval.closed 0 3 : RawInterval Int).intersect (.closed 0 3) = .closed 0 3 := by decide

-- src/test/raw_interval/intersect.rs:257
example : (RawInterval.closed 0 3 : RawInterval Int).intersect (.upTo 2) = .rightOpen 0 2 := by decide

-- src/test/raw_interval/intersect.rs:258
example : (RawInterval.closed 0 3 : RawInterval Int).intersect (.upFrom 2) = .leftOpen 2 3 := by decide

-- src/test/raw_interval/intersect.rs:259
example : (RawInterval.closed 0 3 : RawInterval Int).intersect (.to 2) = .closed 0 2 := by decide

-- src/test/raw_interval/intersect.rs:260
example : (RawInterval.closed 0 3 : RawInterval Int).intersect (.frm 2) = .closed 2 3 := by decide

-- src/test/raw_interval/intersect.rs:261
example : (RawInterval.closed 0 3 : RawInterval Int).intersect .full = .closed 0 3 := by decide

-- src/test/raw_interval/intersect.rs:268
example : (RawInterval.closed 0 3 : RawInterval Int).intersect .empty = .empty := by decide

-- src/test/raw_interval/intersect.rs:269
example : (RawInterval.closed 0 3 : RawInterval Int).intersect (.point (-3)) = .empty := by decide

-- src/test/raw_interval/intersect.rs:270
example : (RawInterval.closed 0 3 : RawInterval Int).intersect (.opn (-3) (-1)) = .empty := by decide

-- src/test/raw_interval/intersect.rs:271
example : (RawInterval.closed 0 3 : RawInterval Int).intersect (.leftOpen (-3) (-1)) = .empty := by decide

-- src/test/raw_interval/intersect.rs:272
example : (RawInterval.closed 0 3 : RawInterval Int).intersect (.rightOpen (-3) (-1)) = .empty := by decide

-- src/test/raw_interval/intersect.rs:273
example : (RawInterval.closed 0 3 : RawInterval Int).intersect (.closed (-3) (-1)) = .empty := by decide

-- src/test/raw_interval/intersect.rs:274
example : (RawInterval.closed 0 3 : RawInterval Int).intersect (.upTo (-3)) = .empty := by decide

-- src/test/raw_interval/intersect.rs:275
example : (RawInterval.closed 0 3 : RawInterval Int).intersect (.upFrom (-3)) = .closed 0 3 := by decide

-- src/test/raw_interval/intersect.rs:276
example : (RawInterval.closed 0 3 : RawInterval Int).intersect (.to (-3)) = .empty := by decide

-- src/test/raw_interval/intersect.rs:277
example : (RawInterval.closed 0 3 : RawInterval Int).intersect (.frm (-3)) = .closed 0 3 := by decide

-- src/test/raw_interval/intersect.rs:278
example : (RawInterval.closed 0 3 : RawInterval Int).intersect .full = .closed 0 3 := by decide

-- src/test/raw_interval/intersect.rs:285
example : (RawInterval.closed 0 3 : RawInterval Int).intersect .empty = .empty := by decide

-- src/test/raw_interval/intersect.rs:286
example : (RawInterval.closed 0 3 : RawInterval Int).intersect (.point 13) = .empty := by decide

-- src/test/raw_interval/intersect.rs:287
example : (RawInterval.closed 0 3 : RawInterval Int).intersect (.opn 10 13) = .empty := by decide

-- src/test/raw_interval/intersect.rs:288
example : (RawInterval.closed 0 3 : RawInterval Int).intersect (.leftOpen 10 13) = .empty := by decide

-- src/test/raw_interval/intersect.rs:289
example : (RawInterval.closed 0 3 : RawInterval Int).intersect (.rightOpen 10 13) = .empty := by decide

-- src/test/raw_interval/intersect.rs:290
example : (RawInterval.closed 0 3 : RawInterval Int).intersect (.closed 10 13) = .empty := by decide

-- src/test/raw_interval/intersect.rs:291
example : (RawInterval.closed 0 3 : RawInterval Int).intersect (.upTo 13) = .closed 0 3 := by decide

-- src/test/raw_interval/intersect.rs:292
example : (RawInterval.closed 0 3 : RawInterval Int).intersect (.upFrom 13) = .empty := by decide

-- src/test/raw_interval/intersect.rs:293
example : (RawInterval.closed 0 3 : RawInterval Int).intersect (.to 13) = .closed 0 3 := by decide

-- src/test/raw_interval/intersect.rs:294
example : (RawInterval.closed 0 3 : RawInterval Int).intersect (.frm 13) = .empty := by decide

-- src/test/raw_interval/intersect.rs:295
example : (RawInterval.closed 0 3 : RawInterval Int).intersect .full = .closed 0 3 := by decide

-- src/test/raw_interval/intersect.rs:302
example : (RawInterval.upTo 3 : RawInterval Int).intersect .empty = .empty := by decide

-- src/test/raw_interval/intersect.rs:303
example : (RawInterval.upTo 3 : RawInterval Int).intersect (.point 2) = .point 2 := by decide

-- src/test/raw_interval/intersect.rs:304
example : (RawInterval.upTo 3 : RawInterval Int).intersect (.opn 0 3) = .opn 0 3 := by decide

-- src/test/raw_interval/intersect.rs:305
example : (RawInterval.upTo 3 : RawInterval Int).intersect (.leftOpen 0 3) = .opn 0 3 := by decide

-- src/test/raw_interval/intersect.rs:306
example : (RawInterval.upTo 3 : RawInterval Int).intersect (.rightOpen 0 3) = .rightOpen 0 3 := by decide

-- src/test/raw_interval/intersect.rs:307
example : (RawInterval.upTo 3 : RawInterval Int).intersect (.closed 0 3) = .rightOpen 0 3 := by decide

-- src/test/raw_interval/intersect.rs:308
example : (RawInterval.upTo 3 : RawInterval Int).intersect (.upTo 2) = .upTo 2 := by decide

-- src/test/raw_interval/intersect.rs:309
example : (RawInterval.upTo 3 : RawInterval Int).intersect (.upFrom 2) = .opn 2 3 := by decide

-- src/test/raw_interval/intersect.rs:310
example : (RawInterval.upTo 3 : RawInterval Int).intersect (.to 2) = .to 2 := by decide

-- src/test/raw_interval/intersect.rs:311
example : (RawInterval.upTo 3 : RawInterval Int).intersect (.frm 2) = .rightOpen 2 3 := by decide

-- src/test/raw_interval/intersect.rs:312
example : (RawInterval.upTo 3 : RawInterval Int).intersect .full = .upTo 3 := by decide

-- src/test/raw_interval/intersect.rs:319
example : (RawInterval.upTo 3 : RawInterval Int).intersect .empty = .empty := by decide

-- src/test/raw_interval/intersect.rs:320
example : (RawInterval.upTo 3 : RawInterval Int).intersect (.point (-3)) = .point (-3) := by decide

-- src/test/raw_interval/intersect.rs:321
example : (RawInterval.upTo 3 : RawInterval Int).intersect (.opn (-3) (-1)) = .opn (-3) (-1) := by decide

-- src/test/raw_interval/intersect.rs:322
example : (RawInterval.upTo 3 : RawInterval Int).intersect (.leftOpen (-3) (-1)) = .leftOpen (-3) (-1) := by decide

-- src/test/raw_interval/intersect.rs:323
example : (RawInterval.upTo 3 : RawInterval Int).intersect (.rightOpen (-3) (-1)) = .rightOpen (-3) (-1) := by decide

-- src/test/raw_interval/intersect.rs:324
example : (RawInterval.upTo 3 : RawInterval Int).intersect (.closed (-3) (-1)) = .closed (-3) (-1) := by decide

-- src/test/raw_interval/intersect.rs:325
example : (RawInterval.upTo 3 : RawInterval Int).intersect (.upTo (-3)) = .upTo (-3) := by decide

-- src/test/raw_interval/intersect.rs:326
example : (RawInterval.upTo 3 : RawInterval Int).intersect (.upFrom (-3)) = .opn (-3) 3 := by decide

-- src/test/raw_interval/intersect.rs:327
example : (RawInterval.upTo 3 : RawInterval Int).intersect (.to (-3)) = .to (-3) := by decide

-- src/test/raw_interval/intersect.rs:328
example : (RawInterval.upTo 3 : RawInterval Int).intersect (.frm (-3)) = .rightOpen (-3) 3 := by decide

-- src/test/raw_interval/intersect.rs:329
example : (RawInterval.upTo 3 : RawInterval Int).intersect .full = .upTo 3 := by decide

-- src/test/raw_interval/intersect.rs:336
example : (RawInterval.upTo 3 : RawInterval Int).intersect .empty = .empty := by decide

-- src/test/raw_interval/intersect.rs:337
example : (RawInterval.upTo 3 : RawInterval Int).intersect (.point 13) = .empty := by decide

-- src/test/raw_interval/intersect.rs:338
example : (RawInterval.upTo 3 : RawInterval Int).intersect (.opn 10 13) = .empty := by decide

-- src/test/raw_interval/intersect.rs:339
example : (RawInterval.upTo 3 : RawInterval Int).intersect (.leftOpen 10 13) = .empty := by decide

-- src/test/raw_interval/intersect.rs:340
example : (RawInterval.upTo 3 : RawInterval Int).intersect (.rightOpen 10 13) = .empty := by decide

-- src/test/raw_interval/intersect.rs:341
example : (RawInterval.upTo 3 : RawInterval Int).intersect (.closed 10 13) = .empty := by decide

-- src/test/raw_interval/intersect.rs:342
example : (RawInterval.upTo 3 : RawInterval Int).intersect (.upTo 13) = .upTo 3 := by decide

-- src/test/raw_interval/intersect.rs:343
example : (RawInterval.upTo 3 : RawInterval Int).intersect (.upFrom 13) = .empty := by decide

-- src/test/raw_interval/intersect.rs:344
example : (RawInterval.upTo 3 : RawInterval Int).intersect (.to 13) = .upTo 3 := by decide

-- src/test/raw_interval/intersect.rs:345
example : (RawInterval.upTo 3 : RawInterval Int).intersect (.frm 13) = .empty := by decide

-- src/test/raw_interval/intersect.rs:346
example : (RawInterval.upTo 3 : RawInterval Int).intersect .full = .upTo 3 := by decide

-- src/test/raw_interval/intersect.rs:353
example : (RawInterval.upFrom 0 : RawInterval Int).intersect .empty = .empty := by decide

-- src/test/raw_interval/intersect.rs:354
example : (RawInterval.upFrom 0 : RawInterval Int).intersect (.point 2) = .point 2 := by decide

-- src/test/raw_interval/intersect.rs:355
example : (RawInterval.upFrom 0 : RawInterval Int).intersect (.opn 0 3) = .opn 0 3 := by decide

-- src/test/raw_interval/intersect.rs:356
example : (RawInterval.upFrom 0 : RawInterval Int).intersect (.leftOpen 0 3) = .leftOpen 0 3 := by decide

-- src/test/raw_interval/intersect.rs:357
example : (RawInterval.upFrom 0 : RawInterval Int).intersect (.rightOpen 0 3) = .opn 0 3 := by decide

-- src/test/raw_interval/intersect.rs:358
example : (RawInterval.upFrom 0 : RawInterval Int).intersect (.closed 0 3) = .leftOpen 0 3 := by decide

-- src/test/raw_interval/intersect.rs:359
example : (RawInterval.upFrom 0 : RawInterval Int).intersect (.upTo 2) = .opn 0 2 := by decide

-- src/test/raw_interval/intersect.rs:360
example : (RawInterval.upFrom 0 : RawInterval Int).intersect (.upFrom 2) = .upFrom 2 := by decide

-- src/test/raw_interval/intersect.rs:361
example : (RawInterval.upFrom 0 : RawInterval Int).intersect (.to 2) = .leftOpen 0 2 := by decide

-- src/test/raw_interval/intersect.rs:362
example : (RawInterval.upFrom 0 : RawInterval Int).intersect (.frm 2) = .frm 2 := by decide

-- src/test/raw_interval/intersect.rs:363
example : (RawInterval.upFrom 0 : RawInterval Int).intersect .full = .upFrom 0 := by decide

-- src/test/raw_interval/intersect.rs:370
example : (RawInterval.upFrom 0 : RawInterval Int).intersect .empty = .empty := by decide

-- src/test/raw_interval/intersect.rs:371
example : (RawInterval.upFrom 0 : RawInterval Int).intersect (.point (-3)) = .empty := by decide

-- src/test/raw_interval/intersect.rs:372
example : (RawInterval.upFrom 0 : RawInterval Int).intersect (.opn (-3) (-1)) = .empty := by decide

-- src/test/raw_interval/intersect.rs:373
example : (RawInterval.upFrom 0 : RawInterval Int).intersect (.leftOpen (-3) (-1)) = .empty := by decide

-- src/test/raw_interval/intersect.rs:374
example : (RawInterval.upFrom 0 : RawInterval Int).intersect (.rightOpen (-3) (-1)) = .empty := by decide

-- src/test/raw_interval/intersect.rs:375
example : (RawInterval.upFrom 0 : RawInterval Int).intersect (.closed (-3) (-1)) = .empty := by decide

-- src/test/raw_interval/intersect.rs:376
example : (RawInterval.upFrom 0 : RawInterval Int).intersect (.upTo (-3)) = .empty := by decide

-- src/test/raw_interval/intersect.rs:377
example : (RawInterval.upFrom 0 : RawInterval Int).intersect (.upFrom (-3)) = .upFrom 0 := by decide

-- src/test/raw_interval/intersect.rs:378
example : (RawInterval.upFrom 0 : RawInterval Int).intersect (.to (-3)) = .empty := by decide

-- src/test/raw_interval/intersect.rs:379
example : (RawInterval.upFrom 0 : RawInterval Int).intersect (.frm (-3)) = .upFrom 0 := by decide

-- src/test/raw_interval/intersect.rs:380
example : (RawInterval.upFrom 0 : RawInterval Int).intersect .full = .upFrom 0 := by decide

-- src/test/raw_interval/intersect.rs:387
example : (RawInterval.upFrom 0 : RawInterval Int).intersect .empty = .empty := by decide

-- src/test/raw_interval/intersect.rs:388
example : (RawInterval.upFrom 0 : RawInterval Int).intersect (.point 13) = .point 13 := by decide

-- src/test/raw_interval/intersect.rs:389
example : (RawInterval.upFrom 0 : RawInterval Int).intersect (.opn 10 13) = .opn 10 13 := by decide

-- src/test/raw_interval/intersect.rs:390
example : (RawInterval.upFrom 0 : RawInterval Int).intersect (.leftOpen 10 13) = .leftOpen 10 13 := by decide

-- src/test/raw_interval/intersect.rs:391
example : (RawInterval.upFrom 0 : RawInterval Int).intersect (.rightOpen 10 13) = .rightOpen 10 13 := by decide

-- src/test/raw_interval/intersect.rs:392
example : (RawInterval.upFrom 0 : RawInterval Int).intersect (.closed 10 13) = .closed 10 13 := by decide

-- src/test/raw_interval/intersect.rs:393
example : (RawInterval.upFrom 0 : RawInterval Int).intersect (.upTo 13) = .opn 0 13 := by decide

-- src/test/raw_interval/intersect.rs:394
example : (RawInterval.upFrom 0 : RawInterval Int).intersect (.upFrom 13) = .upFrom 13 := by decide

-- src/test/raw_interval/intersect.rs:395
example : (RawInterval.upFrom 0 : RawInterval Int).intersect (.to 13) = .leftOpen 0 13 := by decide

-- src/test/raw_interval/intersect.rs:396
example : (RawInterval.upFrom 0 : RawInterval Int).intersect (.frm 13) = .frm 13 := by decide

-- src/test/raw_interval/intersect.rs:397
example : (RawInterval.upFrom 0 : RawInterval Int).intersect .full = .upFrom 0 := by decide

-- src/test/raw_interval/intersect.rs:404
example : (RawInterval.to 3 : RawInterval Int).intersect .empty = .empty := by decide

-- src/test/raw_interval/intersect.rs:405
example : (RawInterval.to 3 : RawInterval Int).intersect (.point 2) = .point 2 := by decide

-- src/test/raw_interval/intersect.rs:406
example : (RawInterval.to 3 : RawInterval Int).intersect (.opn 0 3) = .opn 0 3 := by decide

-- src/test/raw_interval/intersect.rs:407
example : (RawInterval.to 3 : RawInterval Int).intersect (.leftOpen 0 3) = .leftOpen 0 3 := by decide

-- src/test/raw_interval/intersect.rs:408
example : (RawInterval.to 3 : RawInterval Int).intersect (.rightOpen 0 3) = .rightOpen 0 3 := by decide

-- src/test/raw_interval/intersect.rs:409
example : (RawInterval.to 3 : RawInterval Int).intersect (.closed 0 3) = .closed 0 3 := by decide

-- src/test/raw_interval/intersect.rs:410
example : (RawInterval.to 3 : RawInterval Int).intersect (.upTo 2) = .upTo 2 := by decide

-- src/test/raw_interval/intersect.rs:411
example : (RawInterval.to 3 : RawInterval Int).intersect (.upFrom 2) = .leftOpen 2 3 := by decide

-- src/test/raw_interval/intersect.rs:412
example : (RawInterval.to 3 : RawInterval Int).intersect (.to 2) = .to 2 := by decide

-- src/test/raw_interval/intersect.rs:413
example : (RawInterval.to 3 : RawInterval Int).intersect (.frm 2) = .closed 2 3 := by decide

-- src/test/raw_interval/intersect.rs:414
example : (RawInterval.to 3 : RawInterval Int).intersect .full = .to 3 := by decide

-- src/test/raw_interval/intersect.rs:421
example : (RawInterval.to 3 : RawInterval Int).intersect .empty = .empty := by decide

-- src/test/raw_interval/intersect.rs:422
example : (RawInterval.to 3 : RawInterval Int).intersect (.point (-3)) = .point (-3) := by decide

-- src/test/raw_interval/intersect.rs:423
example : (RawInterval.to 3 : RawInterval Int).intersect (.opn (-3) (-1)) = .opn (-3) (-1) := by decide

-- src/test/raw_interval/intersect.rs:424
example : (RawInterval.to 3 : RawInterval Int).intersect (.leftOpen (-3) (-1)) = .leftOpen (-3) (-1) := by decide

-- src/test/raw_interval/intersect.rs:425
example : (RawInterval.to 3 : RawInterval Int).intersect (.rightOpen (-3) (-1)) = .rightOpen (-3) (-1) := by decide

-- src/test/raw_interval/intersect.rs:426
example : (RawInterval.to 3 : RawInterval Int).intersect (.closed (-3) (-1)) = .closed (-3) (-1) := by decide

-- src/test/raw_interval/intersect.rs:427
example : (RawInterval.to 3 : RawInterval Int).intersect (.upTo (-3)) = .upTo (-3) := by decide

-- src/test/raw_interval/intersect.rs:428
example : (RawInterval.to 3 : RawInterval Int).intersect (.upFrom (-3)) = .leftOpen (-3) 3 := by decide

-- src/test/raw_interval/intersect.rs:429
example : (RawInterval.to 3 : RawInterval Int).intersect (.to (-3)) = .to (-3) := by decide

-- src/test/raw_interval/intersect.rs:430
example : (RawInterval.to 3 : RawInterval Int).intersect (.frm (-3)) = .closed (-3) 3 := by decide

-- src/test/raw_interval/intersect.rs:431
example : (RawInterval.to 3 : RawInterval Int).intersect .full = .to 3 := by decide

-- src/test/raw_interval/intersect.rs:438
example : (RawInterval.to 3 : RawInterval Int).intersect .empty = .empty := by decide

-- src/test/raw_interval/intersect.rs:439
example : (RawInterval.to 3 : RawInterval Int).intersect (.point 13) = .empty := by decide

-- src/test/raw_interval/intersect.rs:440
example : (RawInterval.to 3 : RawInterval Int).intersect (.opn 10 13) = .empty := by decide

-- src/test/raw_interval/intersect.rs:441
example : (RawInterval.to 3 : RawInterval Int).intersect (.leftOpen 10 13) = .empty := by decide

-- src/test/raw_interval/intersect.rs:442
example : (RawInterval.to 3 : RawInterval Int).intersect (.rightOpen 10 13) = .empty := by decide

-- src/test/raw_interval/intersect.rs:443
example : (RawInterval.to 3 : RawInterval Int).intersect (.closed 10 13) = .empty := by decide

-- src/test/raw_interval/intersect.rs:444
example : (RawInterval.to 3 : RawInterval Int).intersect (.upTo 13) = .to 3 := by decide

-- src/test/raw_interval/intersect.rs:445
example : (RawInterval.to 3 : RawInterval Int).intersect (.upFrom 13) = .empty := by decide

-- src/test/raw_interval/intersect.rs:446
example : (RawInterval.to 3 : RawInterval Int).intersect (.to 13) = .to 3 := by decide

-- src/test/raw_interval/intersect.rs:447
example : (RawInterval.to 3 : RawInterval Int).intersect (.frm 13) = .empty := by decide

-- src/test/raw_interval/intersect.rs:448
example : (RawInterval.to 3 : RawInterval Int).intersect .full = .to 3 := by decide

-- src/test/raw_interval/intersect.rs:455
example : (RawInterval.frm 0 : RawInterval Int).intersect .empty = .empty := by decide

-- src/test/raw_interval/intersect.rs:456
example : (RawInterval.frm 0 : RawInterval Int).intersect (.point 2) = .point 2 := by decide

-- src/test/raw_interval/intersect.rs:457
example : (RawInterval.frm 0 : RawInterval Int).intersect (.opn 0 3) = .opn 0 3 := by decide

-- src/test/raw_interval/intersect.rs:458
example : (RawInterval.frm 0 : RawInterval Int).intersect (.leftOpen 0 3) = .leftOpen 0 3 := by decide

-- src/test/raw_interval/intersect.rs:459
example : (RawInterval.frm 0 : RawInterval Int).intersect (.rightOpen 0 3) = .rightOpen 0 3 := by decide

-- src/test/raw_interval/intersect.rs:460
example : (RawInterval.frm 0 : RawInterval Int).intersect (.closed 0 3) = .closed 0 3 := by decide

-- src/test/raw_interval/intersect.rs:461
example : (RawInterval.frm 0 : RawInterval Int).intersect (.upTo 2) = .rightOpen 0 2 := by decide

-- src/test/raw_interval/intersect.rs:462
example : (RawInterval.frm 0 : RawInterval Int).intersect (.upFrom 2) = .upFrom 2 := by decide

-- src/test/raw_interval/intersect.rs:463
example : (RawInterval.frm 0 : RawInterval Int).intersect (.to 2) = .closed 0 2 := by decide

-- src/test/raw_interval/intersect.rs:464
example : (RawInterval.frm 0 : RawInterval Int).intersect (.frm 2) = .frm 2 := by decide

-- src/test/raw_interval/intersect.rs:465
example : (RawInterval.frm 0 : RawInterval Int).intersect .full = .frm 0 := by decide

-- src/test/raw_interval/intersect.rs:472
example : (RawInterval.frm 0 : RawInterval Int).intersect .empty = .empty := by decide

-- src/test/raw_interval/intersect.rs:473
example : (RawInterval.frm 0 : RawInterval Int).intersect (.point (-3)) = .empty := by decide

-- src/test/raw_interval/intersect.rs:474
example : (RawInterval.frm 0 : RawInterval Int).intersect (.opn (-3) (-1)) = .empty := by decide

-- src/test/raw_interval/intersect.rs:475
example : (RawInterval.frm 0 : RawInterval Int).intersect (.leftOpen (-3) (-1)) = .empty := by decide

-- src/test/raw_interval/intersect.rs:476
example : (RawInterval.frm 0 : RawInterval Int).intersect (.rightOpen (-3) (-1)) = .empty := by decide

-- src/test/raw_interval/intersect.rs:477
example : (RawInterval.frm 0 : RawInterval Int).intersect (.closed (-3) (-1)) = .empty := by decide

-- src/test/raw_interval/intersect.rs:478
example : (RawInterval.frm 0 : RawInterval Int).intersect (.upTo (-3)) = .empty := by decide

-- src/test/raw_interval/intersect.rs:479
example : (RawInterval.frm 0 : RawInterval Int).intersect (.upFrom (-3)) = .frm 0 := by decide

-- src/test/raw_interval/intersect.rs:480
example : (RawInterval.frm 0 : RawInterval Int).intersect (.to (-3)) = .empty := by decide

-- src/test/raw_interval/intersect.rs:481
example : (RawInterval.frm 0 : RawInterval Int).intersect (.frm (-3)) = .frm 0 := by decide

-- src/test/raw_interval/intersect.rs:482
example : (RawInterval.frm 0 : RawInterval Int).intersect .full = .frm 0 := by decide

-- src/test/raw_interval/intersect.rs:489
example : (RawInterval.frm 0 : RawInterval Int).intersect .empty = .empty := by decide

-- src/test/raw_interval/intersect.rs:490
example : (RawInterval.frm 0 : RawInterval Int).intersect (.point 13) = .point 13 := by decide

-- src/test/raw_interval/intersect.rs:491
example : (RawInterval.frm 0 : RawInterval Int).intersect (.opn 10 13) = .opn 10 13 := by decide

-- src/test/raw_interval/intersect.rs:492
example : (RawInterval.frm 0 : RawInterval Int).intersect (.leftOpen 10 13) = .leftOpen 10 13 := by decide

-- src/test/raw_interval/intersect.rs:493
example : (RawInterval.frm 0 : RawInterval Int).intersect (.rightOpen 10 13) = .rightOpen 10 13 := by decide

-- src/test/raw_interval/intersect.rs:494
example : (RawInterval.frm 0 : RawInterval Int).intersect (.closed 10 13) = .closed 10 13 := by decide

-- src/test/raw_interval/intersect.rs:495
example : (RawInterval.frm 0 : RawInterval Int).intersect (.upTo 13) = .rightOpen 0 13 := by decide

-- src/test/raw_interval/intersect.rs:496
example : (RawInterval.frm 0 : RawInterval Int).intersect (.upFrom 13) = .upFrom 13 := by decide

-- src/test/raw_interval/intersect.rs:497
example : (RawInterval.frm 0 : RawInterval Int).intersect (.to 13) = .closed 0 13 := by decide

-- src/test/raw_interval/intersect.rs:498
example : (RawInterval.frm 0 : RawInterval Int).intersect (.frm 13) = .frm 13 := by decide

-- src/test/raw_interval/intersect.rs:499
example : (RawInterval.frm 0 : RawInterval Int).intersect .full = .frm 0 := by decide

-- src/test/raw_interval/intersect.rs:506
example : (RawInterval.full : RawInterval Int).intersect .empty = .empty := by decide

-- src/test/raw_interval/intersect.rs:507
example : (RawInterval.full : RawInterval Int).intersect (.point 0) = .point 0 := by decide

-- src/test/raw_interval/intersect.rs:508
example : (RawInterval.full : RawInterval Int).intersect (.opn 0 3) = .opn 0 3 := by decide

-- src/test/raw_interval/intersect.rs:509
example : (RawInterval.full : RawInterval Int).intersect (.leftOpen 0 3) = .leftOpen 0 3 := by decide

-- src/test/raw_interval/intersect.rs:510
example : (RawInterval.full : RawInterval Int).intersect (.rightOpen 0 3) = .rightOpen 0 3 := by decide

-- src/test/raw_interval/intersect.rs:511
example : (RawInterval.full : RawInterval Int).intersect (.closed 0 3) = .closed 0 3 := by decide

-- src/test/raw_interval/intersect.rs:512
example : (RawInterval.full : RawInterval Int).intersect (.upTo 0) = .upTo 0 := by decide

-- src/test/raw_interval/intersect.rs:513
example : (RawInterval.full : RawInterval Int).intersect (.upFrom 0) = .upFrom 0 := by decide

-- src/test/raw_interval/intersect.rs:514
example : (RawInterval.full : RawInterval Int).intersect (.to 0) = .to 0 := by decide

-- src/test/raw_interval/intersect.rs:515
example : (RawInterval.full : RawInterval Int).intersect (.frm 0) = .frm 0 := by decide

-- src/test/raw_interval/intersect.rs:516
example : (RawInterval.full : RawInterval Int).intersect .full = .full := by decide

-- src/test/raw_interval/union.rs:30
example : SameSet ((RawInterval.empty : RawInterval Int).union .empty) [] := by decide

-- src/test/raw_interval/union.rs:31
example : SameSet ((RawInterval.empty : RawInterval Int).union (.point 3)) [.point 3] := by decide

-- src/test/raw_interval/union.rs:32
example : SameSet ((RawInterval.empty : RawInterval Int).union (.opn 0 3)) [.opn 0 3] := by decide

-- src/test/raw_interval/union.rs:33
example : SameSet ((RawInterval.empty : RawInterval Int).union (.leftOpen 0 3)) [.leftOpen 0 3] := by decide

-- src/test/raw_interval/union.rs:34
example : SameSet ((RawInterval.empty : RawInterval Int).union (.rightOpen 0 3)) [.rightOpen 0 3] := by decide

-- src/test/raw_interval/union.rs:35
example : SameSet ((RawInterval.empty : RawInterval Int).union (.closed 0 3)) [.closed 0 3] := by decide

-- src/test/raw_interval/union.rs:36
example : SameSet ((RawInterval.empty : RawInterval Int).union (.upTo 3)) [.upTo 3] := by decide

-- src/test/raw_interval/union.rs:37
example : SameSet ((RawInterval.empty : RawInterval Int).union (.upFrom 3)) [.upFrom 3] := by decide

-- src/test/raw_interval/union.rs:38
example : SameSet ((RawInterval.empty : RawInterval Int).union (.to 3)) [.to 3] := by decide

-- src/test/raw_interval/union.rs:39
example : SameSet ((RawInterval.empty : RawInterval Int).union (.frm 3)) [.frm 3] := by decide

-- src/test/raw_interval/union.rs:40
example : SameSet ((RawInterval.empty : RawInterval Int).union .full) [.full] := by decide

-- src/test/raw_interval/union.rs:47
example : SameSet ((RawInterval.point 3 : RawInterval Int).union .empty) [.point 3] := by decide

-- src/test/raw_interval/union.rs:48
example : SameSet ((RawInterval.point 3 : RawInterval Int).union (.point 3)) [.point 3] := by decide

-- src/test/raw_interval/union.rs:49
example : SameSet ((RawInterval.point 3 : RawInterval Int).union (.opn 0 3)) [.leftOpen 0 3] := by decide

-- src/test/raw_interval/union.rs:50
example : SameSet ((RawInterval.point 3 : RawInterval Int).union (.leftOpen 0 3)) [.leftOpen 0 3] := by decide

-- src/test/raw_interval/union.rs:51
example : SameSet ((RawInterval.point 3 : RawInterval Int).union (.rightOpen 0 3)) [.closed 0 3] := by decide

-- src/test/raw_interval/union.rs:52
example : SameSet ((RawInterval.point 3 : RawInterval Int).union (.closed 0 3)) [.closed 0 3] := by decide

-- src/test/raw_interval/union.rs:53
example : SameSet ((RawInterval.point 3 : RawInterval Int).union (.upTo 3)) [.to 3] := by decide

-- src/test/raw_interval/union.rs:54
example : SameSet ((RawInterval.point 3 : RawInterval Int).union (.upFrom 3)) [.frm 3] := by decide

-- src/test/raw_interval/union.rs:55
example : SameSet ((RawInterval.point 3 : RawInterval Int).union (.to 3)) [.to 3] := by decide

-- src/test/raw_interval/union.rs:56
example : SameSet ((RawInterval.point 3 : RawInterval Int).union (.frm 3)) [.frm 3] := by decide

-- src/test/raw_interval/union.rs:57
example : SameSet ((RawInterval.point 3 : RawInterval Int).union .full) [.full] := by decide

-- src/test/raw_interval/union.rs:64
example : SameSet ((RawInterval.point 3 : RawInterval Int).union .empty) [.point 3] := by decide

-- src/test/raw_interval/union.rs:65
example : SameSet ((RawInterval.point 3 : RawInterval Int).union (.point (-1))) [.point 3, .point (-1)] := by decide

-- src/test/raw_interval/union.rs:66
example : SameSet ((RawInterval.point 3 : RawInterval Int).union (.opn (-3) (-1))) [.point 3, .opn (-3) (-1)] := by decide

-- src/test/raw_interval/union.rs:67
example : SameSet ((RawInterval.point 3 : RawInterval Int).union (.leftOpen (-3) (-1))) [.point 3, .leftOpen (-3) (-1)] := by decide

-- src/test/raw_interval/union.rs:68
example : SameSet ((RawInterval.point 3 : RawInterval Int).union (.rightOpen (-3) (-1))) [.point 3, .rightOpen (-3) (-1)] := by decide

-- src/test/raw_interval/union.rs:69
example : SameSet ((RawInterval.point 3 : RawInterval Int).union (.closed (-3) (-1))) [.point 3, .closed (-3) (-1)] := by decide

-- src/test/raw_interval/union.rs:70
example : SameSet ((RawInterval.point 3 : RawInterval Int).union (.upTo (-3))) [.point 3, .upTo (-3)] := by decide

-- src/test/raw_interval/union.rs:71
example : SameSet ((RawInterval.point 3 : RawInterval Int).union (.upFrom (-3))) [.upFrom (-3)] := by decide

-- src/test/raw_interval/union.rs:72
example : SameSet ((RawInterval.point 3 : RawInterval Int).union (.to (-3))) [.point 3, .to (-3)] := by decide

-- src/test/raw_interval/union.rs:73
example : SameSet ((RawInterval.point 3 : RawInterval Int).union (.frm (-3))) [.frm (-3)] := by decide

-- src/test/raw_interval/union.rs:74
example : SameSet ((RawInterval.point 3 : RawInterval Int).union .full) [.full] := by decide

-- src/test/raw_interval/union.rs:81
example : SameSet ((RawInterval.point 3 : RawInterval Int).union .empty) [.point 3] := by decide

-- src/test/raw_interval/union.rs:82
example : SameSet ((RawInterval.point 3 : RawInterval Int).union (.point 10)) [.point 3, .point 10] := by decide

-- src/test/raw_interval/union.rs:83
example : SameSet ((RawInterval.point 3 : RawInterval Int).union (.opn 10 13)) [.point 3, .opn 10 13] := by decide

-- src/test/raw_interval/union.rs:84
example : SameSet ((RawInterval.point 3 : RawInterval Int).union (.leftOpen 10 13)) [.point 3, .leftOpen 10 13] := by decide

-- src/test/raw_interval/union.rs:85
example : SameSet ((RawInterval.point 3 : RawInterval Int).union (.rightOpen 10 13)) [.point 3, .rightOpen 10 13] := by decide

-- src/test/raw_interval/union.rs:86
example : SameSet ((RawInterval.point 3 : RawInterval Int).union (.closed 10 13)) [.point 3, .closed 10 13] := by decide

-- src/test/raw_interval/union.rs:87
example : SameSet ((RawInterval.point 3 : RawInterval Int).union (.upTo 13)) [.upTo 13] := by decide

-- src/test/raw_interval/union.rs:88
example : SameSet ((RawInterval.point 3 : RawInterval Int).union (.upFrom 13)) [.point 3, .upFrom 13] := by decide

-- src/test/raw_interval/union.rs:89
example : SameSet ((RawInterval.point 3 : RawInterval Int).union (.to 13)) [.to 13] := by decide

-- src/test/raw_interval/union.rs:90
example : SameSet ((RawInterval.point 3 : RawInterval Int).union (.frm 13)) [.point 3, .frm 13] := by decide

-- src/test/raw_interval/union.rs:91
example : SameSet ((RawInterval.point 3 : RawInterval Int).union .full) [.full] := by decide

-- src/test/raw_interval/union.rs:98
example : SameSet ((RawInterval.opn 0 3 : RawInterval Int).union .empty) [.opn 0 3] := by decide

-- src/test/raw_interval/union.rs:99
example : SameSet ((RawInterval.opn 0 3 : RawInterval Int).union (.point 3)) [.leftOpen 0 3] := by decide

-- src/test/raw_interval/union.rs:100
example : SameSet ((RawInterval.opn 0 3 : RawInterval Int).union (.opn 0 3)) [.opn 0 3] := by decide

-- src/test/raw_interval/union.rs:101
example : SameSet ((RawInterval.opn 0 3 : RawInterval Int).union (.leftOpen 0 3)) [.leftOpen 0 3] := by decide

-- src/test/raw_interval/union.rs:102
example : SameSet ((RawInterval.opn 0 3 : RawInterval Int).union (.rightOpen 0 3)) [.rightOpen 0 3] := by decide

-- src/test/raw_interval/union.rs:103
example : SameSet ((RawInterval.opn 0 3 : RawInterval Int).union (.closed 0 3)) [.closed 0 3] := by decide

-- src/test/raw_interval/union.rs:104
example : SameSet ((RawInterval.opn 0 3 : RawInterval Int).union (.upTo 3)) [.upTo 3] := by decide

-- src/test/raw_interval/union.rs:105
example : SameSet ((RawInterval.opn 0 3 : RawInterval Int).union (.upFrom 3)) [.opn 0 3, .upFrom 3] := by decide

-- src/test/raw_interval/union.rs:106
example : SameSet ((RawInterval.opn 0 3 : RawInterval Int).union (.to 3)) [.to 3] := by decide

-- src/test/raw_interval/union.rs:107
example : SameSet ((RawInterval.opn 0 3 : RawInterval Int).union (.frm 3)) [.upFrom 0] := by decide

-- src/test/raw_interval/union.rs:108
example : SameSet ((RawInterval.opn 0 3 : RawInterval Int).union .full) [.full] := by decide

-- src/test/raw_interval/union.rs:115
example : SameSet ((RawInterval.opn 0 3 : RawInterval Int).union .empty) [.opn 0 3] := by decide

-- src/test/raw_interval/union.rs:116
example : SameSet ((RawInterval.opn 0 3 : RawInterval Int).union (.point (-3))) [.opn 0 3, .point (-3)] := by decide

-- src/test/raw_interval/union.rs:117
example : SameSet ((RawInterval.opn 0 3 : RawInterval Int).union (.opn (-3) (-1))) [.opn 0 3, .opn (-3) (-1)] := by decide

-- src/test/raw_interval/union.rs:118
example : SameSet ((RawInterval.opn 0 3 : RawInterval Int).union (.leftOpen (-3) (-1))) [.opn 0 3, .leftOpen (-3) (-1)] := by decide

-- src/test/raw_interval/union.rs:119
example : SameSet ((RawInterval.opn 0 3 : RawInterval Int).union (.rightOpen (-3) (-1))) [.opn 0 3, .rightOpen (-3) (-1)] := by decide

-- src/test/raw_interval/union.rs:120
example : SameSet ((RawInterval.opn 0 3 : RawInterval Int).union (.closed (-3) (-1))) [.opn 0 3, .closed (-3) (-1)] := by decide

-- src/test/raw_interval/union.rs:121
example : SameSet ((RawInterval.opn 0 3 : RawInterval Int).union (.upTo (-3))) [.opn 0 3, .upTo (-3)] := by decide

-- src/test/raw_interval/union.rs:122
example : SameSet ((RawInterval.opn 0 3 : RawInterval Int).union (.upFrom (-3))) [.upFrom (-3)] := by decide

-- src/test/raw_interval/union.rs:123
example : SameSet ((RawInterval.opn 0 3 : RawInterval Int).union (.to (-3))) [.opn 0 3, .to (-3)] := by decide

-- src/test/raw_interval/union.rs:124
example : SameSet ((RawInterval.opn 0 3 : RawInterval Int).union (.frm (-3))) [.frm (-3)] := by decide

-- src/test/raw_interval/union.rs:125
example : SameSet ((RawInterval.opn 0 3 : RawInterval Int).union .full) [.full] := by decide

-- src/test/raw_interval/union.rs:132
example : SameSet ((RawInterval.opn 0 3 : RawInterval Int).union .empty) [.opn 0 3] := by decide

-- src/test/raw_interval/union.rs:133
example : SameSet ((RawInterval.opn 0 3 : RawInterval Int).union (.point 13)) [.opn 0 3, .point 13] := by decide

-- src/test/raw_interval/union.rs:134
example : SameSet ((RawInterval.opn 0 3 : RawInterval Int).union (.opn 10 13)) [.opn 0 3, .opn 10 13] := by decide

-- src/test/raw_interval/union.rs:135
example : SameSet ((RawInterval.opn 0 3 : RawInterval Int).union (.leftOpen 10 13)) [.opn 0 3, .leftOpen 10 13] := by decide

-- src/test/raw_interval/union.rs:136
example : SameSet ((RawInterval.opn 0 3 : RawInterval Int).union (.rightOpen 10 13)) [.opn 0 3, .rightOpen 10 13] := by decide

-- src/test/raw_interval/union.rs:137
example : SameSet ((RawInterval.opn 0 3 : RawInterval Int).union (.closed 10 13)) [.opn 0 3, .closed 10 13] := by decide

-- src/test/raw_interval/union.rs:138
example : SameSet ((RawInterval.opn 0 3 : RawInterval Int).union (.upTo 13)) [.upTo 13] := by decide

-- src/test/raw_interval/union.rs:139
example : SameSet ((RawInterval.opn 0 3 : RawInterval Int).union (.upFrom 13)) [.opn 0 3, .upFrom 13] := by decide

-- src/test/raw_interval/union.rs:140
example : SameSet ((RawInterval.opn 0 3 : RawInterval Int).union (.to 13)) [.to 13] := by decide

-- src/test/raw_interval/union.rs:141
example : SameSet ((RawInterval.opn 0 3 : RawInterval Int).union (.frm 13)) [.opn 0 3, .frm 13] := by decide

-- src/test/raw_interval/union.rs:142
example : SameSet ((RawInterval.opn 0 3 : RawInterval Int).union .full) [.full] := by decide

-- src/test/raw_interval/union.rs:149
example : SameSet ((RawInterval.leftOpen 0 3 : RawInterval Int).union .empty) [.leftOpen 0 3] := by decide

-- src/test/raw_interval/union.rs:150
example : SameSet ((RawInterval.leftOpen 0 3 : RawInterval Int).union (.point 3)) [.leftOpen 0 3] := by decide

-- src/test/raw_interval/union.rs:151
example : SameSet ((RawInterval.leftOpen 0 3 : RawInterval Int).union (.opn 0 3)) [.leftOpen 0 3] := by decide

-- src/test/raw_interval/union.rs:152
example : SameSet ((RawInterval.leftOpen 0 3 : RawInterval Int).union (.leftOpen 0 3)) [.leftOpen 0 3] := by decide

-- src/test/raw_interval/union.rs:153
example : SameSet ((RawInterval.leftOpen 0 3 : RawInterval Int).union (.rightOpen 0 3)) [.closed 0 3] := by decide

-- src/test/raw_interval/union.rs:154
example : SameSet ((RawInterval.leftOpen 0 3 : RawInterval Int).union (.closed 0 3)) [.closed 0 3] := by decide

-- src/test/raw_interval/union.rs:155
example : SameSet ((RawInterval.leftOpen 0 3 : RawInterval Int).union (.upTo 3)) [.to 3] := by decide

-- src/test/raw_interval/union.rs:156
example : SameSet ((RawInterval.leftOpen 0 3 : RawInterval Int).union (.upFrom 3)) [.upFrom 0] := by decide

-- src/test/raw_interval/union.rs:157
example : SameSet ((RawInterval.leftOpen 0 3 : RawInterval Int).union (.to 3)) [.to 3] := by decide

-- src/test/raw_interval/union.rs:158
example : SameSet ((RawInterval.leftOpen 0 3 : RawInterval Int).union (.frm 3)) [.upFrom 0] := by decide

-- src/test/raw_interval/union.rs:159
example : SameSet ((RawInterval.leftOpen 0 3 : RawInterval Int).union .full) [.full] := by decide

-- src/test/raw_interval/union.rs:166
example : SameSet ((RawInterval.leftOpen 0 3 : RawInterval Int).union .empty) [.leftOpen 0 3] := by decide

-- src/test/raw_interval/union.rs:167
example : SameSet ((RawInterval.leftOpen 0 3 : RawInterval Int).union (.point (-3))) [.leftOpen 0 3, .point (-3)] := by decide

-- src/test/raw_interval/union.rs:168
example : SameSet ((RawInterval.leftOpen 0 3 : RawInterval Int).union (.opn (-3) (-1))) [.leftOpen 0 3, .opn (-3) (-1)] := by decide

-- src/test/raw_interval/union.rs:169
example : SameSet ((RawInterval.leftOpen 0 3 : RawInterval Int).union (.leftOpen (-3) (-1))) [.leftOpen 0 3, .leftOpen (-3) (-1)] := by decide

-- src/test/raw_interval/union.rs:170
example : SameSet ((RawInterval.leftOpen 0 3 : RawInterval Int).union (.rightOpen (-3) (-1))) [.leftOpen 0 3, .rightOpen (-3) (-1)] := by decide

-- src/test/raw_interval/union.rs:171
example : SameSet ((RawInterval.leftOpen 0 3 : RawInterval Int).union (.closed (-3) (-1))) [.leftOpen 0 3, .closed (-3) (-1)] := by decide

-- src/test/raw_interval/union.rs:172
example : SameSet ((RawInterval.leftOpen 0 3 : RawInterval Int).union (.upTo (-3))) [.leftOpen 0 3, .upTo (-3)] := by decide

-- src/test/raw_interval/union.rs:173
example : SameSet ((RawInterval.leftOpen 0 3 : RawInterval Int).union (.upFrom (-3))) [.upFrom (-3)] := by decide

-- src/test/raw_interval/union.rs:174
example : SameSet ((RawInterval.leftOpen 0 3 : RawInterval Int).union (.to (-3))) [.leftOpen 0 3, .to (-3)] := by decide

-- src/test/raw_interval/union.rs:175
example : SameSet ((RawInterval.leftOpen 0 3 : RawInterval Int).union (.frm (-3))) [.frm (-3)] := by decide

-- src/test/raw_interval/union.rs:176
example : SameSet ((RawInterval.leftOpen 0 3 : RawInterval Int).union .full) [.full] := by decide

-- src/test/raw_interval/union.rs:183
example : SameSet ((RawInterval.leftOpen 0 3 : RawInterval Int).union .empty) [.leftOpen 0 3] := by decide

-- src/test/raw_interval/union.rs:184
example : SameSet ((RawInterval.leftOpen 0 3 : RawInterval Int).union (.point 13)) [.leftOpen 0 3, .point 13] := by decide

-- src/test/raw_interval/union.rs:185
example : SameSet ((RawInterval.leftOpen 0 3 : RawInterval Int).union (.opn 10 13)) [.leftOpen 0 3, .opn 10 13] := by decide

-- src/test/raw_interval/union.rs:186
example : SameSet ((RawInterval.leftOpen 0 3 : RawInterval Int).union (.leftOpen 10 13)) [.leftOpen 0 3, .leftOpen 10 13] := by decide

-- src/test/raw_interval/union.rs:187
example : SameSet ((RawInterval.leftOpen 0 3 : RawInterval Int).union (.rightOpen 10 13)) [.leftOpen 0 3, .rightOpen 10 13] := by decide

-- src/test/raw_interval/union.rs:188
example : SameSet ((RawInterval.leftOpen 0 3 : RawInterval Int).union (.closed 10 13)) [.leftOpen 0 3, .closed 10 13] := by decide

-- src/test/raw_interval/union.rs:189
example : SameSet ((RawInterval.leftOpen 0 3 : RawInterval Int).union (.upTo 13)) [.upTo 13] := by decide

-- src/test/raw_interval/union.rs:190
example : SameSet ((RawInterval.leftOpen 0 3 : RawInterval Int).union (.upFrom 13)) [.leftOpen 0 3, .upFrom 13] := by decide

-- src/test/raw_interval/union.rs:191
example : SameSet ((RawInterval.leftOpen 0 3 : RawInterval Int).union (.to 13)) [.to 13] := by decide

-- src/test/raw_interval/union.rs:192
example : SameSet ((RawInterval.leftOpen 0 3 : RawInterval Int).union (.frm 13)) [.leftOpen 0 3, .frm 13] := by decide

-- src/test/raw_interval/union.rs:193
example : SameSet ((RawInterval.leftOpen 0 3 : RawInterval Int).union .full) [.full] := by decide

-- src/test/raw_interval/union.rs:200
example : SameSet ((RawInterval.rightOpen 0 3 : RawInterval Int).union .empty) [.rightOpen 0 3] := by decide

-- src/test/raw_interval/union.rs:201
example : SameSet ((RawInterval.rightOpen 0 3 : RawInterval Int).union (.point 3)) [.closed 0 3] := by decide

-- src/test/raw_interval/union.rs:202
example : SameSet ((RawInterval.rightOpen 0 3 : RawInterval Int).union (.opn 0 3)) [.rightOpen 0 3] := by decide

-- src/test/raw_interval/union.rs:203
example : SameSet ((RawInterval.rightOpen 0 3 : RawInterval Int).union (.leftOpen 0 3)) [.closed 0 3] := by decide

-- src/test/raw_interval/union.rs:204
example : SameSet ((RawInterval.rightOpen 0 3 : RawInterval Int).union (.rightOpen 0 3)) [.rightOpen 0 3] := by decide

-- src/test/raw_interval/union.rs:205
example : SameSet ((RawInterval.rightOpen 0 3 : RawInterval Int).union (.closed 0 3)) [.closed 0 3] := by decide

-- src/test/raw_interval/union.rs:206
example : SameSet ((RawInterval.rightOpen 0 3 : RawInterval Int).union (.upTo 3)) [.upTo 3] := by decide

-- src/test/raw_interval/union.rs:207
example : SameSet ((RawInterval.rightOpen 0 3 : RawInterval Int).union (.upFrom 3)) [.rightOpen 0 3, .upFrom 3] := by decide

-- src/test/raw_interval/union.rs:208
example : SameSet ((RawInterval.rightOpen 0 3 : RawInterval Int).union (.to 3)) [.to 3] := by decide

-- src/test/raw_interval/union.rs:209
example : SameSet ((RawInterval.rightOpen 0 3 : RawInterval Int).union (.frm 3)) [.frm 0] := by decide

-- src/test/raw_interval/union.rs:210
example : SameSet ((RawInterval.rightOpen 0 3 : RawInterval Int).union .full) [.full] := by decide

-- src/test/raw_interval/union.rs:217
example : SameSet ((RawInterval.rightOpen 0 3 : RawInterval Int).union .empty) [.rightOpen 0 3] := by decide

-- src/test/raw_interval/union.rs:218
example : SameSet ((RawInterval.rightOpen 0 3 : RawInterval Int).union (.point (-3))) [.rightOpen 0 3, .point (-3)] := by decide

-- src/test/raw_interval/union.rs:219
example : SameSet ((RawInterval.rightOpen 0 3 : RawInterval Int).union (.opn (-3) (-1))) [.rightOpen 0 3, .opn (-3) (-1)] := by decide

-- src/test/raw_interval/union.rs:220
example : SameSet ((RawInterval.rightOpen 0 3 : RawInterval Int).union (.leftOpen (-3) (-1))) [.rightOpen 0 3, .leftOpen (-3) (-1)] := by decide

-- src/test/raw_interval/union.rs:221
example : SameSet ((RawInterval.rightOpen 0 3 : RawInterval Int).union (.rightOpen (-3) (-1))) [.rightOpen 0 3, .rightOpen (-3) (-1)] := by decide

-- src/test/raw_interval/union.rs:222
example : SameSet ((RawInterval.rightOpen 0 3 : RawInterval Int).union (.closed (-3) (-1))) [.rightOpen 0 3, .closed (-3) (-1)] := by decide

-- src/test/raw_interval/union.rs:223
example : SameSet ((RawInterval.rightOpen 0 3 : RawInterval Int).union (.upTo (-3))) [.rightOpen 0 3, .upTo (-3)] := by decide

-- src/test/raw_interval/union.rs:224
example : SameSet ((RawInterval.rightOpen 0 3 : RawInterval Int).union (.upFrom (-3))) [.upFrom (-3)] := by decide

-- src/test/raw_interval/union.rs:225
example : SameSet ((RawInterval.rightOpen 0 3 : RawInterval Int).union (.to (-3))) [.rightOpen 0 3, .to (-3)] := by decide

-- src/test/raw_interval/union.rs:226
example : SameSet ((RawInterval.rightOpen 0 3 : RawInterval Int).union (.frm (-3))) [.frm (-3)] := by decide

-- src/test/raw_interval/union.rs:227
example : SameSet ((RawInterval.rightOpen 0 3 : RawInterval Int).union .full) [.full] := by decide

-- src/test/raw_interval/union.rs:234
example : SameSet ((RawInterval.rightOpen 0 3 : RawInterval Int).union .empty) [.rightOpen 0 3] := by decide

-- src/test/raw_interval/union.rs:235
example : SameSet ((RawInterval.rightOpen 0 3 : RawInterval Int).union (.point 13)) [.rightOpen 0 3, .point 13] := by decide

-- src/test/raw_interval/union.rs:236
example : SameSet ((RawInterval.rightOpen 0 3 : RawInterval Int).union (.opn 10 13)) [.rightOpen 0 3, .opn 10 13] := by decide

-- src/test/raw_interval/union.rs:237
example : SameSet ((RawInterval.rightOpen 0 3 : RawInterval Int).union (.leftOpen 10 13)) [.rightOpen 0 3, .leftOpen 10 13] := by decide

-- src/test/raw_interval/union.rs:238
example : SameSet ((RawInterval.rightOpen 0 3 : RawInterval Int).union (.rightOpen 10 13)) [.rightOpen 0 3, .rightOpen 10 13] := by decide

-- src/test/raw_interval/union.rs:239
example : SameSet ((RawInterval.rightOpen 0 3 : RawInterval Int).union (.closed 10 13)) [.rightOpen 0 3, .closed 10 13] := by decide

-- src/test/raw_interval/union.rs:240
example : SameSet ((RawInterval.rightOpen 0 3 : RawInterval Int).union (.upTo 13)) [.upTo 13] := by decide

-- src/test/raw_interval/union.rs:241
example : SameSet ((RawInterval.rightOpen 0 3 : RawInterval Int).union (.upFrom 13)) [.rightOpen 0 3, .upFrom 13] := by decide

-- src/test/raw_interval/union.rs:242
example : SameSet ((RawInterval.rightOpen 0 3 : RawInterval Int).union (.to 13)) [.to 13] := by decide

-- src/test/raw_interval/union.rs:243
example : SameSet ((RawInterval.rightOpen 0 3 : RawInterval Int).union (.frm 13)) [.rightOpen 0 3, .frm 13] := by decide

-- src/test/raw_interval/union.rs:244
example : SameSet ((RawInterval.rightOpen 0 3 : RawInterval Int).union .full) [.full] := by decide

-- src/test/raw_interval/union.rs:251
example : SameSet ((RawInterval.closed 0 3 : RawInterval Int).union .empty) [.closed 0 3] := by decide

-- src/test/raw_interval/union.rs:252
example : SameSet ((RawInterval.closed 0 3 : RawInterval Int).union (.point 3)) [.closed 0 3] := by decide

-- src/test/raw_interval/union.rs:253
example : SameSet ((RawInterval.closed 0 3 : RawInterval Int).union (.opn 0 3)) [.closed 0 3] := by decide

-- src/test/raw_interval/union.rs:254
example : SameSet ((RawInterval.closed 0 3 : RawInterval Int).union (.leftOpen 0 3)) [.closed 0 3] := by decide

-- src/test/raw_interval/union.rs:255
example : SameSet ((RawInterval.closed 0 3 : RawInterval Int).union (.rightOpen 0 3)) [.closed 0 3] := by decide

-- src/test/raw_interval/union.rs:256
example : SameSet ((RawInterval.closed 0 3 : RawInterval Int).union (.closed 0 3)) [.closed 0 3] := by decide

-- src/test/raw_interval/union.rs:257
example : SameSet ((RawInterval.closed 0 3 : RawInterval Int).union (.upTo 3)) [.to 3] := by decide

-- src/test/raw_interval/union.rs:258
example : SameSet ((RawInterval.closed 0 3 : RawInterval Int).union (.upFrom 3)) [.frm 0] := by decide

-- src/test/raw_interval/union.rs:259
example : SameSet ((RawInterval.closed 0 3 : RawInterval Int).union (.to 3)) [.to 3] := by decide

-- src/test/raw_interval/union.rs:260
example : SameSet ((RawInterval.closed 0 3 : RawInterval Int).union (.frm 3)) [.frm 0] := by decide

-- src/test/raw_interval/union.rs:261
example : SameSet ((RawInterval.closed 0 3 : RawInterval Int).union .full) [.full] := by decide

-- src/test/raw_interval/union.rs:268
example : SameSet ((RawInterval.closed 0 3 : RawInterval Int).union .empty) [.closed 0 3] := by decide

-- src/test/raw_interval/union.rs:269
example : SameSet ((RawInterval.closed 0 3 : RawInterval Int).union (.point (-3))) [.closed 0 3, .point (-3)] := by decide

-- src/test/raw_interval/union.rs:270
example : SameSet ((RawInterval.closed 0 3 : RawInterval Int).union (.opn (-3) (-1))) [.closed 0 3, .opn (-3) (-1)] := by decide

-- src/test/raw_interval/union.rs:271
example : SameSet ((RawInterval.closed 0 3 : RawInterval Int).union (.leftOpen (-3) (-1))) [.closed 0 3, .leftOpen (-3) (-1)] := by decide

-- src/test/raw_interval/union.rs:272
example : SameSet ((RawInterval.closed 0 3 : RawInterval Int).union (.rightOpen (-3) (-1))) [.closed 0 3, .rightOpen (-3) (-1)] := by decide

-- src/test/raw_interval/union.rs:273
example : SameSet ((RawInterval.closed 0 3 : RawInterval Int).union (.closed (-3) (-1))) [.closed 0 3, .closed (-3) (-1)] := by decide

-- src/test/raw_interval/union.rs:274
example : SameSet ((RawInterval.closed 0 3 : RawInterval Int).union (.upTo (-3))) [.closed 0 3, .upTo (-3)] := by decide

-- src/test/raw_interval/union.rs:275
example : SameSet ((RawInterval.closed 0 3 : RawInterval Int).union (.upFrom (-3))) [.upFrom (-3)] := by decide

-- src/test/raw_interval/union.rs:276
example : SameSet ((RawInterval.closed 0 3 : RawInterval Int).union (.to (-3))) [.closed 0 3, .to (-3)] := by decide

-- src/test/raw_interval/union.rs:277
example : SameSet ((RawInterval.closed 0 3 : RawInterval Int).union (.frm (-3))) [.frm (-3)] := by decide

-- src/test/raw_interval/union.rs:278
example : SameSet ((RawInterval.closed 0 3 : RawInterval Int).union .full) [.full] := by decide

-- src/test/raw_interval/union.rs:285
example : SameSet ((RawInterval.closed 0 3 : RawInterval Int).union .empty) [.closed 0 3] := by decide

-- src/test/raw_interval/union.rs:286
example : SameSet ((RawInterval.closed 0 3 : RawInterval Int).union (.point 13)) [.closed 0 3, .point 13] := by decide

-- src/test/raw_interval/union.rs:287
example : SameSet ((RawInterval.closed 0 3 : RawInterval Int).union (.opn 10 13)) [.closed 0 3, .opn 10 13] := by decide

-- src/test/raw_interval/union.rs:288
example : SameSet ((RawInterval.closed 0 3 : RawInterval Int).union (.leftOpen 10 13)) [.closed 0 3, .leftOpen 10 13] := by decide

-- src/test/raw_interval/union.rs:289
example : SameSet ((RawInterval.closed 0 3 : RawInterval Int).union (.rightOpen 10 13)) [.closed 0 3, .rightOpen 10 13] := by decide

-- src/test/raw_interval/union.rs:290
example : SameSet ((RawInterval.closed 0 3 : RawInterval Int).union (.closed 10 13)) [.closed 0 3, .closed 10 13] := by decide

-- src/test/raw_interval/union.rs:291
example : SameSet ((RawInterval.closed 0 3 : RawInterval Int).union (.upTo 13)) [.upTo 13] := by decide

-- src/test/raw_interval/union.rs:292
example : SameSet ((RawInterval.closed 0 3 : RawInterval Int).union (.upFrom 13)) [.closed 0 3, .upFrom 13] := by decide

-- src/test/raw_interval/union.rs:293
example : SameSet ((RawInterval.closed 0 3 : RawInterval Int).union (.to 13)) [.to 13] := by decide

-- src/test/raw_interval/union.rs:294
example : SameSet ((RawInterval.closed 0 3 : RawInterval Int).union (.frm 13)) [.closed 0 3, .frm 13] := by decide

-- src/test/raw_interval/union.rs:295
example : SameSet ((RawInterval.closed 0 3 : RawInterval Int).union .full) [.full] := by decide

-- src/test/raw_interval/union.rs:302
example : SameSet ((RawInterval.upTo 3 : RawInterval Int).union .empty) [.upTo 3] := by decide

-- src/test/raw_interval/union.rs:303
example : SameSet ((RawInterval.upTo 3 : RawInterval Int).union (.point 3)) [.to 3] := by decide

-- src/test/raw_interval/union.rs:304
example : SameSet ((RawInterval.upTo 3 : RawInterval Int).union (.opn 0 3)) [.upTo 3] := by decide

-- src/test/raw_interval/union.rs:305
example : SameSet ((RawInterval.upTo 3 : RawInterval Int).union (.leftOpen 0 3)) [.to 3] := by decide

-- src/test/raw_interval/union.rs:306
example : SameSet ((RawInterval.upTo 3 : RawInterval Int).union (.rightOpen 0 3)) [.upTo 3] := by decide

-- src/test/raw_interval/union.rs:307
example : SameSet ((RawInterval.upTo 3 : RawInterval Int).union (.closed 0 3)) [.to 3] := by decide

-- src/test/raw_interval/union.rs:308
example : SameSet ((RawInterval.upTo 3 : RawInterval Int).union (.upTo 3)) [.upTo 3] := by decide

-- src/test/raw_interval/union.rs:309
example : SameSet ((RawInterval.upTo 3 : RawInterval Int).union (.upFrom 3)) [.upTo 3, .upFrom 3] := by decide

-- src/test/raw_interval/union.rs:310
example : SameSet ((RawInterval.upTo 3 : RawInterval Int).union (.to 3)) [.to 3] := by decide

-- src/test/raw_interval/union.rs:311
example : SameSet ((RawInterval.upTo 3 : RawInterval Int).union (.frm 3)) [.full] := by decide

-- src/test/raw_interval/union.rs:312
example : SameSet ((RawInterval.upTo 3 : RawInterval Int).union .full) [.full] := by decide

-- src/test/raw_interval/union.rs:319
example : SameSet ((RawInterval.upTo 3 : RawInterval Int).union .empty) [.upTo 3] := by decide

-- src/test/raw_interval/union.rs:320
example : SameSet ((RawInterval.upTo 3 : RawInterval Int).union (.point (-3))) [.upTo 3] := by decide

-- src/test/raw_interval/union.rs:321
example : SameSet ((RawInterval.upTo 3 : RawInterval Int).union (.opn (-3) (-1))) [.upTo 3] := by decide

-- src/test/raw_interval/union.rs:322
example : SameSet ((RawInterval.upTo 3 : RawInterval Int).union (.leftOpen (-3) (-1))) [.upTo 3] := by decide

-- src/test/raw_interval/union.rs:323
example : SameSet ((RawInterval.upTo 3 : RawInterval Int).union (.rightOpen (-3) (-1))) [.upTo 3] := by decide

-- src/test/raw_interval/union.rs:324
example : SameSet ((RawInterval.upTo 3 : RawInterval Int).union (.closed (-3) (-1))) [.upTo 3] := by decide

-- src/test/raw_interval/union.rs:325
example : SameSet ((RawInterval.upTo 3 : RawInterval Int).union (.upTo (-3))) [.upTo 3] := by decide

-- src/test/raw_interval/union.rs:326
example : SameSet ((RawInterval.upTo 3 : RawInterval Int).union (.upFrom (-3))) [.full] := by decide

-- src/test/raw_interval/union.rs:327
example : SameSet ((RawInterval.upTo 3 : RawInterval Int).union (.to (-3))) [.upTo 3] := by decide

-- src/test/raw_interval/union.rs:328
example : SameSet ((RawInterval.upTo 3 : RawInterval Int).union (.frm (-3))) [.full] := by decide

-- src/test/raw_interval/union.rs:329
example : SameSet ((RawInterval.upTo 3 : RawInterval Int).union .full) [.full] := by decide

-- src/test/raw_interval/union.rs:336
example : SameSet ((RawInterval.upTo 3 : RawInterval Int).union .empty) [.upTo 3] := by decide

-- src/test/raw_interval/union.rs:337
example : SameSet ((RawInterval.upTo 3 : RawInterval Int).union (.point 13)) [.upTo 3, .point 13] := by decide

-- src/test/raw_interval/union.rs:338
example : SameSet ((RawInterval.upTo 3 : RawInterval Int).union (.opn 10 13)) [.upTo 3, .opn 10 13] := by decide

-- src/test/raw_interval/union.rs:339
example : SameSet ((RawInterval.upTo 3 : RawInterval Int).union (.leftOpen 10 13)) [.upTo 3, .leftOpen 10 13] := by decide

-- src/test/raw_interval/union.rs:340
example : SameSet ((RawInterval.upTo 3 : RawInterval Int).union (.rightOpen 10 13)) [.upTo 3, .rightOpen 10 13] := by decide

-- src/test/raw_interval/union.rs:341
example : SameSet ((RawInterval.upTo 3 : RawInterval Int).union (.closed 10 13)) [.upTo 3, .closed 10 13] := by decide

-- src/test/raw_interval/union.rs:342
example : SameSet ((RawInterval.upTo 3 : RawInterval Int).union (.upTo 13)) [.upTo 13] := by decide

-- src/test/raw_interval/union.rs:343
example : SameSet ((RawInterval.upTo 3 : RawInterval Int).union (.upFrom 13)) [.upTo 3, .upFrom 13] := by decide

-- src/test/raw_interval/union.rs:344
example : SameSet ((RawInterval.upTo 3 : RawInterval Int).union (.to 13)) [.to 13] := by decide

-- src/test/raw_interval/union.rs:345
example : SameSet ((RawInterval.upTo 3 : RawInterval Int).union (.frm 13)) [.upTo 3, .frm 13] := by decide

-- src/test/raw_interval/union.rs:346
example : SameSet ((RawInterval.upTo 3 : RawInterval Int).union .full) [.full] := by decide

-- src/test/raw_interval/union.rs:353
example : SameSet ((RawInterval.upFrom 0 : RawInterval Int).union .empty) [.upFrom 0] := by decide

-- src/test/raw_interval/union.rs:354
example : SameSet ((RawInterval.upFrom 0 : RawInterval Int).union (.point 0)) [.frm 0] := by decide

-- src/test/raw_interval/union.rs:355
example : SameSet ((RawInterval.upFrom 0 : RawInterval Int).union (.opn 0 3)) [.upFrom 0] := by decide

-- src/test/raw_interval/union.rs:356
example : SameSet ((RawInterval.upFrom 0 : RawInterval Int).union (.leftOpen 0 3)) [.upFrom 0] := by decide

-- src/test/raw_interval/union.rs:357
example : SameSet ((RawInterval.upFrom 0 : RawInterval Int).union (.rightOpen 0 3)) [.frm 0] := by decide

-- src/test/raw_interval/union.rs:358
example : SameSet ((RawInterval.upFrom 0 : RawInterval Int).union (.closed 0 3)) [.frm 0] := by decide

-- src/test/raw_interval/union.rs:359
example : SameSet ((RawInterval.upFrom 0 : RawInterval Int).union (.upTo 0)) [.upTo 0, .upFrom 0] := by decide

-- src/test/raw_interval/union.rs:360
example : SameSet ((RawInterval.upFrom 0 : RawInterval Int).union (.upFrom 0)) [.upFrom 0] := by decide

-- src/test/raw_interval/union.rs:361
example : SameSet ((RawInterval.upFrom 0 : RawInterval Int).union (.to 0)) [.full] := by decide

-- src/test/raw_interval/union.rs:362
example : SameSet ((RawInterval.upFrom 0 : RawInterval Int).union (.frm 0)) [.frm 0] := by decide

-- src/test/raw_interval/union.rs:363
example : SameSet ((RawInterval.upFrom 0 : RawInterval Int).union .full) [.full] := by decide

-- src/test/raw_interval/union.rs:370
example : SameSet ((RawInterval.upFrom 0 : RawInterval Int).union .empty) [.upFrom 0] := by decide

-- src/test/raw_interval/union.rs:371
example : SameSet ((RawInterval.upFrom 0 : RawInterval Int).union (.point (-3))) [.upFrom 0, .point (-3)] := by decide

-- src/test/raw_interval/union.rs:372
example : SameSet ((RawInterval.upFrom 0 : RawInterval Int).union (.opn (-3) (-1))) [.upFrom 0, .opn (-3) (-1)] := by decide

-- src/test/raw_interval/union.rs:373
example : SameSet ((RawInterval.upFrom 0 : RawInterval Int).union (.leftOpen (-3) (-1))) [.upFrom 0, .leftOpen (-3) (-1)] := by decide

-- src/test/raw_interval/union.rs:374
example : SameSet ((RawInterval.upFrom 0 : RawInterval Int).union (.rightOpen (-3) (-1))) [.upFrom 0, .rightOpen (-3) (-1)] := by decide

-- src/test/raw_interval/union.rs:375
example : SameSet ((RawInterval.upFrom 0 : RawInterval Int).union (.closed (-3) (-1))) [.upFrom 0, .closed (-3) (-1)] := by decide

-- src/test/raw_interval/union.rs:376
example : SameSet ((RawInterval.upFrom 0 : RawInterval Int).union (.upTo (-3))) [.upFrom 0, .upTo (-3)] := by decide

-- src/test/raw_interval/union.rs:377
example : SameSet ((RawInterval.upFrom 0 : RawInterval Int).union (.upFrom (-3))) [.upFrom (-3)] := by decide

-- src/test/raw_interval/union.rs:378
example : SameSet ((RawInterval.upFrom 0 : RawInterval Int).union (.to (-3))) [.upFrom 0, .to (-3)] := by decide

-- src/test/raw_interval/union.rs:379
example : SameSet ((RawInterval.upFrom 0 : RawInterval Int).union (.frm (-3))) [.frm (-3)] := by decide

-- src/test/raw_interval/union.rs:380
example : SameSet ((RawInterval.upFrom 0 : RawInterval Int).union .full) [.full] := by decide

-- src/test/raw_interval/union.rs:387
example : SameSet ((RawInterval.upFrom 0 : RawInterval Int).union .empty) [.upFrom 0] := by decide

-- src/test/raw_interval/union.rs:388
example : SameSet ((RawInterval.upFrom 0 : RawInterval Int).union (.point 13)) [.upFrom 0] := by decide

-- src/test/raw_interval/union.rs:389
example : SameSet ((RawInterval.upFrom 0 : RawInterval Int).union (.opn 10 13)) [.upFrom 0] := by decide

-- src/test/raw_interval/union.rs:390
example : SameSet ((RawInterval.upFrom 0 : RawInterval Int).union (.leftOpen 10 13)) [.upFrom 0] := by decide

-- src/test/raw_interval/union.rs:391
example : SameSet ((RawInterval.upFrom 0 : RawInterval Int).union (.rightOpen 10 13)) [.upFrom 0] := by decide

-- src/test/raw_interval/union.rs:392
example : SameSet ((RawInterval.upFrom 0 : RawInterval Int).union (.closed 10 13)) [.upFrom 0] := by decide

-- src/test/raw_interval/union.rs:393
example : SameSet ((RawInterval.upFrom 0 : RawInterval Int).union (.upTo 13)) [.full] := by decide

-- src/test/raw_interval/union.rs:394
example : SameSet ((RawInterval.upFrom 0 : RawInterval Int).union (.upFrom 13)) [.upFrom 0] := by decide

-- src/test/raw_interval/union.rs:395
example : SameSet ((RawInterval.upFrom 0 : RawInterval Int).union (.to 13)) [.full] := by decide

-- src/test/raw_interval/union.rs:396
example : SameSet ((RawInterval.upFrom 0 : RawInterval Int).union (.frm 13)) [.upFrom 0] := by decide

-- src/test/raw_interval/union.rs:397
example : SameSet ((RawInterval.upFrom 0 : RawInterval Int).union .full) [.full] := by decide

-- src/test/raw_interval/union.rs:404
example : SameSet ((RawInterval.to 3 : RawInterval Int).union .empty) [.to 3] := by decide

-- src/test/raw_interval/union.rs:405
example : SameSet ((RawInterval.to 3 : RawInterval Int).union (.point 3)) [.to 3] := by decide

-- src/test/raw_interval/union.rs:406
example : SameSet ((RawInterval.to 3 : RawInterval Int).union (.opn 0 3)) [.to 3] := by decide

-- src/test/raw_interval/union.rs:407
example : SameSet ((RawInterval.to 3 : RawInterval Int).union (.leftOpen 0 3)) [.to 3] := by decide

-- src/test/raw_interval/union.rs:408
example : SameSet ((RawInterval.to 3 : RawInterval Int).union (.rightOpen 0 3)) [.to 3] := by decide

-- src/test/raw_interval/union.rs:409
example : SameSet ((RawInterval.to 3 : RawInterval Int).union (.closed 0 3)) [.to 3] := by decide

-- src/test/raw_interval/union.rs:410
example : SameSet ((RawInterval.to 3 : RawInterval Int).union (.upTo 3)) [.to 3] := by decide

-- src/test/raw_interval/union.rs:411
example : SameSet ((RawInterval.to 3 : RawInterval Int).union (.upFrom 3)) [.full] := by decide

-- src/test/raw_interval/union.rs:412
example : SameSet ((RawInterval.to 3 : RawInterval Int).union (.to 3)) [.to 3] := by decide

-- src/test/raw_interval/union.rs:413
example : SameSet ((RawInterval.to 3 : RawInterval Int).union (.frm 3)) [.full] := by decide

-- src/test/raw_interval/union.rs:414
example : SameSet ((RawInterval.to 3 : RawInterval Int).union .full) [.full] := by decide

-- src/test/raw_interval/union.rs:421
example : SameSet ((RawInterval.to 3 : RawInterval Int).union .empty) [.to 3] := by decide

-- src/test/raw_interval/union.rs:422
example : SameSet ((RawInterval.to 3 : RawInterval Int).union (.point (-3))) [.to 3] := by decide

-- src/test/raw_interval/union.rs:423
example : SameSet ((RawInterval.to 3 : RawInterval Int).union (.opn (-3) (-1))) [.to 3] := by decide

-- src/test/raw_interval/union.rs:424
example : SameSet ((RawInterval.to 3 : RawInterval Int).union (.leftOpen (-3) (-1))) [.to 3] := by decide

-- src/test/raw_interval/union.rs:425
example : SameSet ((RawInterval.to 3 : RawInterval Int).union (.rightOpen (-3) (-1))) [.to 3] := by decide

-- src/test/raw_interval/union.rs:426
example : SameSet ((RawInterval.to 3 : RawInterval Int).union (.closed (-3) (-1))) [.to 3] := by decide

-- src/test/raw_interval/union.rs:427
example : SameSet ((RawInterval.to 3 : RawInterval Int).union (.upTo (-3))) [.to 3] := by decide

-- src/test/raw_interval/union.rs:428
example : SameSet ((RawInterval.to 3 : RawInterval Int).union (.upFrom (-3))) [.full] := by decide

-- src/test/raw_interval/union.rs:429
example : SameSet ((RawInterval.to 3 : RawInterval Int).union (.to (-3))) [.to 3] := by decide

-- src/test/raw_interval/union.rs:430
example : SameSet ((RawInterval.to 3 : RawInterval Int).union (.frm (-3))) [.full] := by decide

-- src/test/raw_interval/union.rs:431
example : SameSet ((RawInterval.to 3 : RawInterval Int).union .full) [.full] := by decide

-- src/test/raw_interval/union.rs:438
example : SameSet ((RawInterval.to 3 : RawInterval Int).union .empty) [.to 3] := by decide

-- src/test/raw_interval/union.rs:439
example : SameSet ((RawInterval.to 3 : RawInterval Int).union (.point 13)) [.to 3, .point 13] := by decide

-- src/test/raw_interval/union.rs:440
example : SameSet ((RawInterval.to 3 : RawInterval Int).union (.opn 10 13)) [.to 3, .opn 10 13] := by decide

-- src/test/raw_interval/union.rs:441
example : SameSet ((RawInterval.to 3 : RawInterval Int).union (.leftOpen 10 13)) [.to 3, .leftOpen 10 13] := by decide

-- src/test/raw_interval/union.rs:442
example : SameSet ((RawInterval.to 3 : RawInterval Int).union (.rightOpen 10 13)) [.to 3, .rightOpen 10 13] := by decide

-- src/test/raw_interval/union.rs:443
example : SameSet ((RawInterval.to 3 : RawInterval Int).union (.closed 10 13)) [.to 3, .closed 10 13] := by decide

-- src/test/raw_interval/union.rs:444
example : SameSet ((RawInterval.to 3 : RawInterval Int).union (.upTo 13)) [.upTo 13] := by decide

-- src/test/raw_interval/union.rs:445
example : SameSet ((RawInterval.to 3 : RawInterval Int).union (.upFrom 13)) [.to 3, .upFrom 13] := by decide

-- src/test/raw_interval/union.rs:446
example : SameSet ((RawInterval.to 3 : RawInterval Int).union (.to 13)) [.to 13] := by decide

-- src/test/raw_interval/union.rs:447
example : SameSet ((RawInterval.to 3 : RawInterval Int).union (.frm 13)) [.to 3, .frm 13] := by decide

-- src/test/raw_interval/union.rs:448
example : SameSet ((RawInterval.to 3 : RawInterval Int).union .full) [.full] := by decide

-- src/test/raw_interval/union.rs:455
example : SameSet ((RawInterval.frm 0 : RawInterval Int).union .empty) [.frm 0] := by decide

-- src/test/raw_interval/union.rs:456
example : SameSet ((RawInterval.frm 0 : RawInterval Int).union (.point 0)) [.frm 0] := by decide

-- src/test/raw_interval/union.rs:457
example : SameSet ((RawInterval.frm 0 : RawInterval Int).union (.opn 0 3)) [.frm 0] := by decide

-- src/test/raw_interval/union.rs:458
example : SameSet ((RawInterval.frm 0 : RawInterval Int).union (.leftOpen 0 3)) [.frm 0] := by decide

-- src/test/raw_interval/union.rs:459
example : SameSet ((RawInterval.frm 0 : RawInterval Int).union (.rightOpen 0 3)) [.frm 0] := by decide

-- src/test/raw_interval/union.rs:460
example : SameSet ((RawInterval.frm 0 : RawInterval Int).union (.closed 0 3)) [.frm 0] := by decide

-- src/test/raw_interval/union.rs:461
example : SameSet ((RawInterval.frm 0 : RawInterval Int).union (.upTo 0)) [.full] := by decide

-- src/test/raw_interval/union.rs:462
example : SameSet ((RawInterval.frm 0 : RawInterval Int).union (.upFrom 0)) [.frm 0] := by decide

-- src/test/raw_interval/union.rs:463
example : SameSet ((RawInterval.frm 0 : RawInterval Int).union (.to 0)) [.full] := by decide

-- src/test/raw_interval/union.rs:464
example : SameSet ((RawInterval.frm 0 : RawInterval Int).union (.frm 0)) [.frm 0] := by decide

-- src/test/raw_interval/union.rs:465
example : SameSet ((RawInterval.frm 0 : RawInterval Int).union .full) [.full] := by decide

-- src/test/raw_interval/union.rs:472
example : SameSet ((RawInterval.frm 0 : RawInterval Int).union .empty) [.frm 0] := by decide

-- src/test/raw_interval/union.rs:473
example : SameSet ((RawInterval.frm 0 : RawInterval Int).union (.point (-3))) [.frm 0, .point (-3)] := by decide

-- src/test/raw_interval/union.rs:474
example : SameSet ((RawInterval.frm 0 : RawInterval Int).union (.opn (-3) (-1))) [.frm 0, .opn (-3) (-1)] := by decide

-- src/test/raw_interval/union.rs:475
example : SameSet ((RawInterval.frm 0 : RawInterval Int).union (.leftOpen (-3) (-1))) [.frm 0, .leftOpen (-3) (-1)] := by decide

-- src/test/raw_interval/union.rs:476
example : SameSet ((RawInterval.frm 0 : RawInterval Int).union (.rightOpen (-3) (-1))) [.frm 0, .rightOpen (-3) (-1)] := by decide

-- src/test/raw_interval/union.rs:477
example : SameSet ((RawInterval.frm 0 : RawInterval Int).union (.closed (-3) (-1))) [.frm 0, .closed (-3) (-1)] := by decide

-- src/test/raw_interval/union.rs:478
example : SameSet ((RawInterval.frm 0 : RawInterval Int).union (.upTo (-3))) [.frm 0, .upTo (-3)] := by decide

-- src/test/raw_interval/union.rs:479
example : SameSet ((RawInterval.frm 0 : RawInterval Int).union (.upFrom (-3))) [.upFrom (-3)] := by decide

-- src/test/raw_interval/union.rs:480
example : SameSet ((RawInterval.frm 0 : RawInterval Int).union (.to (-3))) [.frm 0, .to (-3)] := by decide

-- src/test/raw_interval/union.rs:481
example : SameSet ((RawInterval.frm 0 : RawInterval Int).union (.frm (-3))) [.frm (-3)] := by decide

-- src/test/raw_interval/union.rs:482
example : SameSet ((RawInterval.frm 0 : RawInterval Int).union .full) [.full] := by decide

-- src/test/raw_interval/union.rs:489
example : SameSet ((RawInterval.frm 0 : RawInterval Int).union .empty) [.frm 0] := by decide

-- src/test/raw_interval/union.rs:490
example : SameSet ((RawInterval.frm 0 : RawInterval Int).union (.point 13)) [.frm 0] := by decide

-- src/test/raw_interval/union.rs:491
example : SameSet ((RawInterval.frm 0 : RawInterval Int).union (.opn 10 13)) [.frm 0] := by decide

-- src/test/raw_interval/union.rs:492
example : SameSet ((RawInterval.frm 0 : RawInterval Int).union (.leftOpen 10 13)) [.frm 0] := by decide

-- src/test/raw_interval/union.rs:493
example : SameSet ((RawInterval.frm 0 : RawInterval Int).union (.rightOpen 10 13)) [.frm 0] := by decide

-- src/test/raw_interval/union.rs:494
example : SameSet ((RawInterval.frm 0 : RawInterval Int).union (.closed 10 13)) [.frm 0] := by decide

-- src/test/raw_interval/union.rs:495
example : SameSet ((RawInterval.frm 0 : RawInterval Int).union (.upTo 13)) [.full] := by decide

-- src/test/raw_interval/union.rs:496
example : SameSet ((RawInterval.frm 0 : RawInterval Int).union (.upFrom 13)) [.frm 0] := by decide

-- src/test/raw_interval/union.rs:497
example : SameSet ((RawInterval.frm 0 : RawInterval Int).union (.to 13)) [.full] := by decide

-- src/test/raw_interval/union.rs:498
example : SameSet ((RawInterval.frm 0 : RawInterval Int).union (.frm 13)) [.frm 0] := by decide

-- src/test/raw_interval/union.rs:499
example : SameSet ((RawInterval.frm 0 : RawInterval Int).union .full) [.full] := by decide

-- src/test/raw_interval/union.rs:506
example : SameSet ((RawInterval.full : RawInterval Int).union .empty) [.full] := by decide

-- src/test/raw_interval/union.rs:507
example : SameSet ((RawInterval.full : RawInterval Int).union (.point 0)) [.full] := by decide

-- src/test/raw_interval/union.rs:508
example : SameSet ((RawInterval.full : RawInterval Int).union (.opn 0 3)) [.full] := by decide

-- src/test/raw_interval/union.rs:509
example : SameSet ((RawInterval.full : RawInterval Int).union (.leftOpen 0 3)) [.full] := by decide

-- src/test/raw_interval/union.rs:510
example : SameSet ((RawInterval.full : RawInterval Int).union (.rightOpen 0 3)) [.full] := by decide

-- src/test/raw_interval/union.rs:511
example : SameSet ((RawInterval.full : RawInterval Int).union (.closed 0 3)) [.full] := by decide

-- src/test/raw_interval/union.rs:512
example : SameSet ((RawInterval.full : RawInterval Int).union (.upTo 0)) [.full] := by decide

-- src/test/raw_interval/union.rs:513
example : SameSet ((RawInterval.full : RawInterval Int).union (.upFrom 0)) [.full] := by decide

-- src/test/raw_interval/union.rs:514
example : SameSet ((RawInterval.full : RawInterval Int).union (.to 0)) [.full] := by decide

-- src/test/raw_interval/union.rs:515
example : SameSet ((RawInterval.full : RawInterval Int).union (.frm 0)) [.full] := by decide

-- src/test/raw_interval/union.rs:516
example : SameSet ((RawInterval.full : RawInterval Int).union .full) [.full] := by decide

-- src/test/raw_interval/minus.rs:30
example : SameSet ((RawInterval.empty : RawInterval Int).minus .empty) [] := by decide

-- src/test/raw_interval/minus.rs:31
example : SameSet ((RawInterval.empty : RawInterval Int).minus (.point 3)) [] := by decide

-- src/test/raw_interval/minus.rs:32
example : SameSet ((RawInterval.empty : RawInterval Int).minus (.opn 0 3)) [] := by decide

-- src/test/raw_interval/minus.rs:33
example : SameSet ((RawInterval.empty : RawInterval Int).minus (.leftOpen 0 3)) [] := by decide

-- src/test/raw_interval/minus.rs:34
example : SameSet ((RawInterval.empty : RawInterval Int).minus (.rightOpen 0 3)) [] := by decide

-- src/test/raw_interval/minus.rs:35
example : SameSet ((RawInterval.empty : RawInterval Int).minus (.closed 0 3)) [] := by decide

-- src/test/raw_interval/minus.rs:36
example : SameSet ((RawInterval.empty : RawInterval Int).minus (.upTo 3)) [] := by decide

-- src/test/raw_interval/minus.rs:37
example : SameSet ((RawInterval.empty : RawInterval Int).minus (.upFrom 3)) [] := by decide

-- src/test/raw_interval/minus.rs:38
example : SameSet ((RawInterval.empty : RawInterval Int).minus (.to 3)) [] := by decide

-- src/test/raw_interval/minus.rs:39
example : SameSet ((RawInterval.empty : RawInterval Int).minus (.frm 3)) [] := by decide

-- src/test/raw_interval/minus.rs:40
example : SameSet ((RawInterval.empty : RawInterval Int).minus .full) [] := by decide

-- src/test/raw_interval/minus.rs:47
example : SameSet ((RawInterval.point 3 : RawInterval Int).minus .empty) [.point 3] := by decide

-- src/test/raw_interval/minus.rs:48
example : SameSet ((RawInterval.point 3 : RawInterval Int).minus (.point 3)) [] := by decide

-- src/test/raw_interval/minus.rs:49
example : SameSet ((RawInterval.point 3 : RawInterval Int).minus (.opn 0 3)) [.point 3] := by decide

-- src/test/raw_interval/minus.rs:50
example : SameSet ((RawInterval.point 3 : RawInterval Int).minus (.leftOpen 0 3)) [] := by decide

-- src/test/raw_interval/minus.rs:51
example : SameSet ((RawInterval.point 3 : RawInterval Int).minus (.rightOpen 0 3)) [.point 3] := by decide

-- src/test/raw_interval/minus.rs:52
example : SameSet ((RawInterval.point 3 : RawInterval Int).minus (.closed 0 3)) [] := by decide

-- src/test/raw_interval/minus.rs:53
example : SameSet ((RawInterval.point 3 : RawInterval Int).minus (.upTo 3)) [.point 3] := by decide

-- src/test/raw_interval/minus.rs:54
example : SameSet ((RawInterval.point 3 : RawInterval Int).minus (.upFrom 3)) [.point 3] := by decide

-- src/test/raw_interval/minus.rs:55
example : SameSet ((RawInterval.point 3 : RawInterval Int).minus (.to 3)) [] := by decide

-- src/test/raw_interval/minus.rs:56
example : SameSet ((RawInterval.point 3 : RawInterval Int).minus (.frm 3)) [] := by decide

-- src/test/raw_interval/minus.rs:57
example : SameSet ((RawInterval.point 3 : RawInterval Int).minus .full) [] := by decide

-- src/test/raw_interval/minus.rs:64
example : SameSet ((RawInterval.point 3 : RawInterval Int).minus .empty) [.point 3] := by decide

-- src/test/raw_interval/minus.rs:65
example : SameSet ((RawInterval.point 3 : RawInterval Int).minus (.point (-1))) [.point 3] := by decide

-- src/test/raw_interval/minus.rs:66
example : SameSet ((RawInterval.point 3 : RawInterval Int).minus (.opn (-3) (-1))) [.point 3] := by decide

-- src/test/raw_interval/minus.rs:67
example : SameSet ((RawInterval.point 3 : RawInterval Int).minus (.leftOpen (-3) (-1))) [.point 3] := by decide

-- src/test/raw_interval/minus.rs:68
example : SameSet ((RawInterval.point 3 : RawInterval Int).minus (.rightOpen (-3) (-1))) [.point 3] := by decide

-- src/test/raw_interval/minus.rs:69
example : SameSet ((RawInterval.point 3 : RawInterval Int).minus (.closed (-3) (-1))) [.point 3] := by decide

-- src/test/raw_interval/minus.rs:70
example : SameSet ((RawInterval.point 3 : RawInterval Int).minus (.upTo (-3))) [.point 3] := by decide

-- src/test/raw_interval/minus.rs:71
example : SameSet ((RawInterval.point 3 : RawInterval Int).minus (.upFrom (-3))) [] := by decide

-- src/test/raw_interval/minus.rs:72
example : SameSet ((RawInterval.point 3 : RawInterval Int).minus (.to (-3))) [.point 3] := by decide

-- src/test/raw_interval/minus.rs:73
example : SameSet ((RawInterval.point 3 : RawInterval Int).minus (.frm (-3))) [] := by decide

-- src/test/raw_interval/minus.rs:74
example : SameSet ((RawInterval.point 3 : RawInterval Int).minus .full) [] := by decide

-- src/test/raw_interval/minus.rs:81
example : SameSet ((RawInterval.point 3 : RawInterval Int).minus .empty) [.point 3] := by decide

-- src/test/raw_interval/minus.rs:82
example : SameSet ((RawInterval.point 3 : RawInterval Int).minus (.point 10)) [.point 3] := by decide

-- src/test/raw_interval/minus.rs:83
example : SameSet ((RawInterval.point 3 : RawInterval Int).minus (.opn 10 13)) [.point 3] := by decide

-- src/test/raw_interval/minus.rs:84
example : SameSet ((RawInterval.point 3 : RawInterval Int).minus (.leftOpen 10 13)) [.point 3] := by decide

-- src/test/raw_interval/minus.rs:85
example : SameSet ((RawInterval.point 3 : RawInterval Int).minus (.rightOpen 10 13)) [.point 3] := by decide

-- src/test/raw_interval/minus.rs:86
example : SameSet ((RawInterval.point 3 : RawInterval Int).minus (.closed 10 13)) [.point 3] := by decide

-- src/test/raw_interval/minus.rs:87
example : SameSet ((RawInterval.point 3 : RawInterval Int).minus (.upTo 13)) [] := by decide

-- src/test/raw_interval/minus.rs:88
example : SameSet ((RawInterval.point 3 : RawInterval Int).minus (.upFrom 13)) [.point 3] := by decide

-- src/test/raw_interval/minus.rs:89
example : SameSet ((RawInterval.point 3 : RawInterval Int).minus (.to 13)) [] := by decide

-- src/test/raw_interval/minus.rs:90
example : SameSet ((RawInterval.point 3 : RawInterval Int).minus (.frm 13)) [.point 3] := by decide

-- src/test/raw_interval/minus.rs:91
example : SameSet ((RawInterval.point 3 : RawInterval Int).minus .full) [] := by decide

-- src/test/raw_interval/minus.rs:98
example : SameSet ((RawInterval.opn 0 3 : RawInterval Int).minus .empty) [.opn 0 3] := by decide

-- src/test/raw_interval/minus.rs:99
example : SameSet ((RawInterval.opn 0 3 : RawInterval Int).minus (.point 2)) [.opn 0 2, .opn 2 3] := by decide

-- src/test/raw_interval/minus.rs:100
example : SameSet ((RawInterval.opn 0 3 : RawInterval Int).minus (.opn 0 3)) [] := by decide

-- src/test/raw_interval/minus.rs:101
example : SameSet ((RawInterval.opn 0 3 : RawInterval Int).minus (.leftOpen 0 3)) [] := by decide

-- src/test/raw_interval/minus.rs:102
example : SameSet ((RawInterval.opn 0 3 : RawInterval Int).minus (.rightOpen 0 3)) [] := by decide

-- src/test/raw_interval/minus.rs:103
example : SameSet ((RawInterval.opn 0 3 : RawInterval Int).minus (.closed 0 3)) [] := by decide

-- src/test/raw_interval/minus.rs:104
example : SameSet ((RawInterval.opn 0 3 : RawInterval Int).minus (.upTo 2)) [.rightOpen 2 3] := by decide

-- src/test/raw_interval/minus.rs:105
example : SameSet ((RawInterval.opn 0 3 : RawInterval Int).minus (.upFrom 2)) [.leftOpen 0 2] := by decide

-- src/test/raw_interval/minus.rs:106
example : SameSet ((RawInterval.opn 0 3 : RawInterval Int).minus (.to 2)) [.opn 2 3] := by decide

-- src/test/raw_interval/minus.rs:107
example : SameSet ((RawInterval.opn 0 3 : RawInterval Int).minus (.frm 2)) [.opn 0 2] := by decide

-- src/test/raw_interval/minus.rs:108
example : SameSet ((RawInterval.opn 0 3 : RawInterval Int).minus .full) [] := by decide

-- src/test/raw_interval/minus.rs:115
example : SameSet ((RawInterval.opn 0 3 : RawInterval Int).minus .empty) [.opn 0 3] := by decide

-- src/test/raw_interval/minus.rs:116
example : SameSet ((RawInterval.opn 0 3 : RawInterval Int).minus (.point (-3))) [.opn 0 3] := by decide

-- src/test/raw_interval/minus.rs:117
example : SameSet ((RawInterval.opn 0 3 : RawInterval Int).minus (.opn (-3) (-1))) [.opn 0 3] := by decide

-- src/test/raw_interval/minus.rs:118
example : SameSet ((RawInterval.opn 0 3 : RawInterval Int).minus (.leftOpen (-3) (-1))) [.opn 0 3] := by decide

-- src/test/raw_interval/minus.rs:119
example : SameSet ((RawInterval.opn 0 3 : RawInterval Int).minus (.rightOpen (-3) (-1))) [.opn 0 3] := by decide

-- src/test/raw_interval/minus.rs:120
example : SameSet ((RawInterval.opn 0 3 : RawInterval Int).minus (.closed (-3) (-1))) [.opn 0 3] := by decide

-- src/test/raw_interval/minus.rs:121
example : SameSet ((RawInterval.opn 0 3 : RawInterval Int).minus (.upTo (-3))) [.opn 0 3] := by decide

-- src/test/raw_interval/minus.rs:122
example : SameSet ((RawInterval.opn 0 3 : RawInterval Int).minus (.upFrom (-3))) [] := by decide

-- src/test/raw_interval/minus.rs:123
example : SameSet ((RawInterval.opn 0 3 : RawInterval Int).minus (.to (-3))) [.opn 0 3] := by decide

-- src/test/raw_interval/minus.rs:124
example : SameSet ((RawInterval.opn 0 3 : RawInterval Int).minus (.frm (-3))) [] := by decide

-- src/test/raw_interval/minus.rs:125
example : SameSet ((RawInterval.opn 0 3 : RawInterval Int).minus .full) [] := by decide

-- src/test/raw_interval/minus.rs:132
example : SameSet ((RawInterval.opn 0 3 : RawInterval Int).minus .empty) [.opn 0 3] := by decide

-- src/test/raw_interval/minus.rs:133
example : SameSet ((RawInterval.opn 0 3 : RawInterval Int).minus (.point 13)) [.opn 0 3] := by decide

-- src/test/raw_interval/minus.rs:134
example : SameSet ((RawInterval.opn 0 3 : RawInterval Int).minus (.opn 10 13)) [.opn 0 3] := by decide

-- src/test/raw_interval/minus.rs:135
example : SameSet ((RawInterval.opn 0 3 : RawInterval Int).minus (.leftOpen 10 13)) [.opn 0 3] := by decide

-- src/test/raw_interval/minus.rs:136
example : SameSet ((RawInterval.opn 0 3 : RawInterval Int).minus (.rightOpen 10 13)) [.opn 0 3] := by decide

-- src/test/raw_interval/minus.rs:137
example : SameSet ((RawInterval.opn 0 3 : RawInterval Int).minus (.closed 10 13)) [.opn 0 3] := by decide

-- src/test/raw_interval/minus.rs:138
example : SameSet ((RawInterval.opn 0 3 : RawInterval Int).minus (.upTo 13)) [] := by decide

-- src/test/raw_interval/minus.rs:139
example : SameSet ((RawInterval.opn 0 3 : RawInterval Int).minus (.upFrom 13)) [.opn 0 3] := by decide

-- src/test/raw_interval/minus.rs:140
example : SameSet ((RawInterval.opn 0 3 : RawInterval Int).minus (.to 13)) [] := by decide

-- src/test/raw_interval/minus.rs:141
example : SameSet ((RawInterval.opn 0 3 : RawInterval Int).minus (.frm 13)) [.opn 0 3] := by decide

-- src/test/raw_interval/minus.rs:142
example : SameSet ((RawInterval.opn 0 3 : RawInterval Int).minus .full) [] := by decide

-- src/test/raw_interval/minus.rs:149
example : SameSet ((RawInterval.leftOpen 0 3 : RawInterval Int).minus .empty) [.leftOpen 0 3] := by decide

-- src/test/raw_interval/minus.rs:150
example : SameSet ((RawInterval.leftOpen 0 3 : RawInterval Int).minus (.point 2)) [.opn 0 2, .leftOpen 2 3] := by decide

-- src/test/raw_interval/minus.rs:151
example : SameSet ((RawInterval.leftOpen 0 3 : RawInterval Int).minus (.opn 0 3)) [.point 3] := by decide

-- src/test/raw_interval/minus.rs:152
example : SameSet ((RawInterval.leftOpen 0 3 : RawInterval Int).minus (.leftOpen 0 3)) [] := by decide

-- src/test/raw_interval/minus.rs:153
example : SameSet ((RawInterval.leftOpen 0 3 : RawInterval Int).minus (.rightOpen 0 3)) [.point 3] := by decide

-- src/test/raw_interval/minus.rs:154
example : SameSet ((RawInterval.leftOpen 0 3 : RawInterval Int).minus (.closed 0 3)) [] := by decide

-- src/test/raw_interval/minus.rs:155
example : SameSet ((RawInterval.leftOpen 0 3 : RawInterval Int).minus (.upTo 2)) [.closed 2 3] := by decide

-- src/test/raw_interval/minus.rs:156
example : SameSet ((RawInterval.leftOpen 0 3 : RawInterval Int).minus (.upFrom 2)) [.leftOpen 0 2] := by decide

-- src/test/raw_interval/minus.rs:157
example : SameSet ((RawInterval.leftOpen 0 3 : RawInterval Int).minus (.to 2)) [.leftOpen 2 3] := by decide

-- src/test/raw_interval/minus.rs:158
example : SameSet ((RawInterval.leftOpen 0 3 : RawInterval Int).minus (.frm 2)) [.opn 0 2] := by decide

-- src/test/raw_interval/minus.rs:159
example : SameSet ((RawInterval.leftOpen 0 3 : RawInterval Int).minus .full) [] := by decide

-- src/test/raw_interval/minus.rs:166
example : SameSet ((RawInterval.leftOpen 0 3 : RawInterval Int).minus .empty) [.leftOpen 0 3] := by decide

-- src/test/raw_interval/minus.rs:167
example : SameSet ((RawInterval.leftOpen 0 3 : RawInterval Int).minus (.point (-3))) [.leftOpen 0 3] := by decide

-- src/test/raw_interval/minus.rs:168
example : SameSet ((RawInterval.leftOpen 0 3 : RawInterval Int).minus (.opn (-3) (-1))) [.leftOpen 0 3] := by decide

-- src/test/raw_interval/minus.rs:169
example : SameSet ((RawInterval.leftOpen 0 3 : RawInterval Int).minus (.leftOpen (-3) (-1))) [.leftOpen 0 3] := by decide

-- src/test/raw_interval/minus.rs:170
example : SameSet ((RawInterval.leftOpen 0 3 : RawInterval Int).minus (.rightOpen (-3) (-1))) [.leftOpen 0 3] := by decide

-- src/test/raw_interval/minus.rs:171
example : SameSet ((RawInterval.leftOpen 0 3 : RawInterval Int).minus (.closed (-3) (-1))) [.leftOpen 0 3] := by decide

-- src/test/raw_interval/minus.rs:172
example : SameSet ((RawInterval.leftOpen 0 3 : RawInterval Int).minus (.upTo (-3))) [.leftOpen 0 3] := by decide

-- src/test/raw_interval/minus.rs:173
example : SameSet ((RawInterval.leftOpen 0 3 : RawInterval Int).minus (.upFrom (-3))) [] := by decide

-- src/test/raw_interval/minus.rs:174
example : SameSet ((RawInterval.leftOpen 0 3 : RawInterval Int).minus (.to (-3))) [.leftOpen 0 3] := by decide

-- src/test/raw_interval/minus.rs:175
example : SameSet ((RawInterval.leftOpen 0 3 : RawInterval Int).minus (.frm (-3))) [] := by decide

-- src/test/raw_interval/minus.rs:176
example : SameSet ((RawInterval.leftOpen 0 3 : RawInterval Int).minus .full) [] := by decide

-- src/test/raw_interval/minus.rs:183
example : SameSet ((RawInterval.leftOpen 0 3 : RawInterval Int).minus .empty) [.leftOpen 0 3] := by decide

-- src/test/raw_interval/minus.rs:184
example : SameSet ((RawInterval.leftOpen 0 3 : RawInterval Int).minus (.point 13)) [.leftOpen 0 3] := by decide

-- src/test/raw_interval/minus.rs:185
example : SameSet ((RawInterval.leftOpen 0 3 : RawInterval Int).minus (.opn 10 13)) [.leftOpen 0 3] := by decide

-- src/test/raw_interval/minus.rs:186
example : SameSet ((RawInterval.leftOpen 0 3 : RawInterval Int).minus (.leftOpen 10 13)) [.leftOpen 0 3] := by decide

-- src/test/raw_interval/minus.rs:187
example : SameSet ((RawInterval.leftOpen 0 3 : RawInterval Int).minus (.rightOpen 10 13)) [.leftOpen 0 3] := by decide

-- src/test/raw_interval/minus.rs:188
example : SameSet ((RawInterval.leftOpen 0 3 : RawInterval Int).minus (.closed 10 13)) [.leftOpen 0 3] := by decide

-- src/test/raw_interval/minus.rs:189
example : SameSet ((RawInterval.leftOpen 0 3 : RawInterval Int).minus (.upTo 13)) [] := by decide

-- src/test/raw_interval/minus.rs:190
example : SameSet ((RawInterval.leftOpen 0 3 : RawInterval Int).minus (.upFrom 13)) [.leftOpen 0 3] := by decide

-- src/test/raw_interval/minus.rs:191
example : SameSet ((RawInterval.leftOpen 0 3 : RawInterval Int).minus (.to 13)) [] := by decide

-- src/test/raw_interval/minus.rs:192
example : SameSet ((RawInterval.leftOpen 0 3 : RawInterval Int).minus (.frm 13)) [.leftOpen 0 3] := by decide

-- src/test/raw_interval/minus.rs:193
example : SameSet ((RawInterval.leftOpen 0 3 : RawInterval Int).minus .full) [] := by decide

-- src/test/raw_interval/minus.rs:200
example : SameSet ((RawInterval.rightOpen 0 3 : RawInterval Int).minus .empty) [.rightOpen 0 3] := by decide

-- src/test/raw_interval/minus.rs:201
example : SameSet ((RawInterval.rightOpen 0 3 : RawInterval Int).minus (.point 2)) [.rightOpen 0 2, .opn 2 3] := by decide

-- src/test/raw_interval/minus.rs:202
example : SameSet ((RawInterval.rightOpen 0 3 : RawInterval Int).minus (.opn 0 3)) [.point 0] := by decide

-- src/test/raw_interval/minus.rs:203
example : SameSet ((RawInterval.rightOpen 0 3 : RawInterval Int).minus (.leftOpen 0 3)) [.point 0] := by decide

-- src/test/raw_interval/minus.rs:204
example : SameSet ((RawInterval.rightOpen 0 3 : RawInterval Int).minus (.rightOpen 0 3)) [] := by decide

-- src/test/raw_interval/minus.rs:205
example : SameSet ((RawInterval.rightOpen 0 3 : RawInterval Int).minus (.closed 0 3)) [] := by decide

-- src/test/raw_interval/minus.rs:206
example : SameSet ((RawInterval.rightOpen 0 3 : RawInterval Int).minus (.upTo 2)) [.rightOpen 2 3] := by decide

-- src/test/raw_interval/minus.rs:207
example : SameSet ((RawInterval.rightOpen 0 3 : RawInterval Int).minus (.upFrom 2)) [.closed 0 2] := by decide

-- src/test/raw_interval/minus.rs:208
example : SameSet ((RawInterval.rightOpen 0 3 : RawInterval Int).minus (.to 2)) [.opn 2 3] := by decide

-- src/test/raw_interval/minus.rs:209
example : SameSet ((RawInterval.rightOpen 0 3 : RawInterval Int).minus (.frm 2)) [.rightOpen 0 2] := by decide

-- src/test/raw_interval/minus.rs:210
example : SameSet ((RawInterval.rightOpen 0 3 : RawInterval Int).minus .full) [] := by decide

-- src/test/raw_interval/minus.rs:217
example : SameSet ((RawInterval.rightOpen 0 3 : RawInterval Int).minus .empty) [.rightOpen 0 3] := by decide

-- src/test/raw_interval/minus.rs:218
example : SameSet ((RawInterval.rightOpen 0 3 : RawInterval Int).minus (.point (-3))) [.rightOpen 0 3] := by decide

-- src/test/raw_interval/minus.rs:219
example : SameSet ((RawInterval.rightOpen 0 3 : RawInterval Int).minus (.opn (-3) (-1))) [.rightOpen 0 3] := by decide

-- src/test/raw_interval/minus.rs:220
example : SameSet ((RawInterval.rightOpen 0 3 : RawInterval Int).minus (.leftOpen (-3) (-1))) [.rightOpen 0 3] := by decide

-- src/test/raw_interval/minus.rs:221
example : SameSet ((RawInterval.rightOpen 0 3 : RawInterval Int).minus (.rightOpen (-3) (-1))) [.rightOpen 0 3] := by decide

-- src/test/raw_interval/minus.rs:222
example : SameSet ((RawInterval.rightOpen 0 3 : RawInterval Int).minus (.closed (-3) (-1))) [.rightOpen 0 3] := by decide

-- src/test/raw_interval/minus.rs:223
example : SameSet ((RawInterval.rightOpen 0 3 : RawInterval Int).minus (.upTo (-3))) [.rightOpen 0 3] := by decide

-- src/test/raw_interval/minus.rs:224
example : SameSet ((RawInterval.rightOpen 0 3 : RawInterval Int).minus (.upFrom (-3))) [] := by decide

-- src/test/raw_interval/minus.rs:225
example : SameSet ((RawInterval.rightOpen 0 3 : RawInterval Int).minus (.to (-3))) [.rightOpen 0 3] := by decide

-- src/test/raw_interval/minus.rs:226
example : SameSet ((RawInterval.rightOpen 0 3 : RawInterval Int).minus (.frm (-3))) [] := by decide

-- src/test/raw_interval/minus.rs:227
example : SameSet ((RawInterval.rightOpen 0 3 : RawInterval Int).minus .full) [] := by decide

-- src/test/raw_interval/minus.rs:234
example : SameSet ((RawInterval.rightOpen 0 3 : RawInterval Int).minus .empty) [.rightOpen 0 3] := by decide

-- src/test/raw_interval/minus.rs:235
example : SameSet ((RawInterval.rightOpen 0 3 : RawInterval Int).minus (.point 13)) [.rightOpen 0 3] := by decide

-- src/test/raw_interval/minus.rs:236
example : SameSet ((RawInterval.rightOpen 0 3 : RawInterval Int).minus (.opn 10 13)) [.rightOpen 0 3] := by decide

-- src/test/raw_interval/minus.rs:237
example : SameSet ((RawInterval.rightOpen 0 3 : RawInterval Int).minus (.leftOpen 10 13)) [.rightOpen 0 3] := by decide

-- src/test/raw_interval/minus.rs:238
example : SameSet ((RawInterval.rightOpen 0 3 : RawInterval Int).minus (.rightOpen 10 13)) [.rightOpen 0 3] := by decide

-- src/test/raw_interval/minus.rs:239
example : SameSet ((RawInterval.rightOpen 0 3 : RawInterval Int).minus (.closed 10 13)) [.rightOpen 0 3] := by decide

-- src/test/raw_interval/minus.rs:240
example : SameSet ((RawInterval.rightOpen 0 3 : RawInterval Int).minus (.upTo 13)) [] := by decide

-- src/test/raw_interval/minus.rs:241
example : SameSet ((RawInterval.rightOpen 0 3 : RawInterval Int).minus (.upFrom 13)) [.rightOpen 0 3] := by decide

-- src/test/raw_interval/minus.rs:242
example : SameSet ((RawInterval.rightOpen 0 3 : RawInterval Int).minus (.to 13)) [] := by decide

-- src/test/raw_interval/minus.rs:243
example : SameSet ((RawInterval.rightOpen 0 3 : RawInterval Int).minus (.frm 13)) [.rightOpen 0 3] := by decide

-- src/test/raw_interval/minus.rs:244
example : SameSet ((RawInterval.rightOpen 0 3 : RawInterval Int).minus .full) [] := by decide

-- src/test/raw_interval/minus.rs:251
example : SameSet ((RawInterval.closed 0 3 : RawInterval Int).minus .empty) [.closed 0 3] := by decide

-- src/test/raw_interval/minus.rs:252
example : SameSet ((RawInterval.closed 0 3 : RawInterval Int).minus (.point 2)) [.rightOpen 0 2, .leftOpen 2 3] := by decide

-- src/test/raw_interval/minus.rs:253
example : SameSet ((RawInterval.closed 0 3 : RawInterval Int).minus (.opn 0 3)) [.point 0, .point 3] := by decide

-- src/test/raw_interval/minus.rs:254
example : SameSet ((RawInterval.closed 0 3 : RawInterval Int).minus (.leftOpen 0 3)) [.point 0] := by decide

-- src/test/raw_interval/minus.rs:255
example : SameSet ((RawInterval.closed 0 3 : RawInterval Int).minus (.rightOpen 0 3)) [.point 3] := by decide

-- src/test/raw_interval/minus.rs:256
example : SameSet ((RawInterval.closed 0 3 : RawInterval Int).minus (.closed 0 3)) [] := by decide

-- src/test/raw_interval/minus.rs:257
example : SameSet ((RawInterval.closed 0 3 : RawInterval Int).minus (.upTo 2)) [.closed 2 3] := by decide

-- src/test/raw_interval/minus.rs:258
example : SameSet ((RawInterval.closed 0 3 : RawInterval Int).minus (.upFrom 2)) [.closed 0 2] := by decide

-- src/test/raw_interval/minus.rs:259
example : SameSet ((RawInterval.closed 0 3 : RawInterval Int).minus (.to 2)) [.leftOpen 2 3] := by decide

-- src/test/raw_interval/minus.rs:260
example : SameSet ((RawInterval.closed 0 3 : RawInterval Int).minus (.frm 2)) [.rightOpen 0 2] := by decide

-- src/test/raw_interval/minus.rs:261
example : SameSet ((RawInterval.closed 0 3 : RawInterval Int).minus .full) [] := by decide

-- src/test/raw_interval/minus.rs:268
example : SameSet ((RawInterval.closed 0 3 : RawInterval Int).minus .empty) [.closed 0 3] := by decide

-- src/test/raw_interval/minus.rs:269
example : SameSet ((RawInterval.closed 0 3 : RawInterval Int).minus (.point (-3))) [.closed 0 3] := by decide

-- src/test/raw_interval/minus.rs:270
example : SameSet ((RawInterval.closed 0 3 : RawInterval Int).minus (.opn (-3) (-1))) [.closed 0 3] := by decide

-- src/test/raw_interval/minus.rs:271
example : SameSet ((RawInterval.closed 0 3 : RawInterval Int).minus (.leftOpen (-3) (-1))) [.closed 0 3] := by decide

-- src/test/raw_interval/minus.rs:272
example : SameSet ((RawInterval.closed 0 3 : RawInterval Int).minus (.rightOpen (-3) (-1))) [.closed 0 3] := by decide

-- src/test/raw_interval/minus.rs:273
example : SameSet ((RawInterval.closed 0 3 : RawInterval Int).minus (.closed (-3) (-1))) [.closed 0 3] := by decide

-- src/test/raw_interval/minus.rs:274
example : SameSet ((RawInterval.closed 0 3 : RawInterval Int).minus (.upTo (-3))) [.closed 0 3] := by decide

-- src/test/raw_interval/minus.rs:275
example : SameSet ((RawInterval.closed 0 3 : RawInterval Int).minus (.upFrom (-3))) [] := by decide

-- src/test/raw_interval/minus.rs:276
example : SameSet ((RawInterval.closed 0 3 : RawInterval Int).minus (.to (-3))) [.closed 0 3] := by decide

-- src/test/raw_interval/minus.rs:277
example : SameSet ((RawInterval.closed 0 3 : RawInterval Int).minus (.frm (-3))) [] := by decide

-- src/test/raw_interval/minus.rs:278
example : SameSet ((RawInterval.closed 0 3 : RawInterval Int).minus .full) [] := by decide

-- src/test/raw_interval/minus.rs:285
example : SameSet ((RawInterval.closed 0 3 : RawInterval Int).minus .empty) [.closed 0 3] := by decide

-- src/test/raw_interval/minus.rs:286
example : SameSet ((RawInterval.closed 0 3 : RawInterval Int).minus (.point 13)) [.closed 0 3] := by decide

-- src/test/raw_interval/minus.rs:287
example : SameSet ((RawInterval.closed 0 3 : RawInterval Int).minus (.opn 10 13)) [.closed 0 3] := by decide

-- src/test/raw_interval/minus.rs:288
example : SameSet ((RawInterval.closed 0 3 : RawInterval Int).minus (.leftOpen 10 13)) [.closed 0 3] := by decide

-- src/test/raw_interval/minus.rs:289
example : SameSet ((RawInterval.closed 0 3 : RawInterval Int).minus (.rightOpen 10 13)) [.closed 0 3] := by decide

-- src/test/raw_interval/minus.rs:290
example : SameSet ((RawInterval.closed 0 3 : RawInterval Int).minus (.closed 10 13)) [.closed 0 3] := by decide

-- src/test/raw_interval/minus.rs:291
example : SameSet ((RawInterval.closed 0 3 : RawInterval Int).minus (.upTo 13)) [] := by decide

-- src/test/raw_interval/minus.rs:292
example : SameSet ((RawInterval.closed 0 3 : RawInterval Int).minus (.upFrom 13)) [.closed 0 3] := by decide

-- src/test/raw_interval/minus.rs:293
example : SameSet ((RawInterval.closed 0 3 : RawInterval Int).minus (.to 13)) [] := by decide

-- src/test/raw_interval/minus.rs:294
example : SameSet ((RawInterval.closed 0 3 : RawInterval Int).minus (.frm 13)) [.closed 0 3] := by decide

-- src/test/raw_interval/minus.rs:295
example : SameSet ((RawInterval.closed 0 3 : RawInterval Int).minus .full) [] := by decide

-- src/test/raw_interval/minus.rs:302
example : SameSet ((RawInterval.upTo 3 : RawInterval Int).minus .empty) [.upTo 3] := by decide

-- src/test/raw_interval/minus.rs:303
example : SameSet ((RawInterval.upTo 3 : RawInterval Int).minus (.point 2)) [.upTo 2, .opn 2 3] := by decide

-- src/test/raw_interval/minus.rs:304
example : SameSet ((RawInterval.upTo 3 : RawInterval Int).minus (.opn 0 3)) [.to 0] := by decide

-- src/test/raw_interval/minus.rs:305
example : SameSet ((RawInterval.upTo 3 : RawInterval Int).minus (.leftOpen 0 3)) [.to 0] := by decide

-- src/test/raw_interval/minus.rs:306
example : SameSet ((RawInterval.upTo 3 : RawInterval Int).minus (.rightOpen 0 3)) [.upTo 0] := by decide

-- src/test/raw_interval/minus.rs:307
example : SameSet ((RawInterval.upTo 3 : RawInterval Int).minus (.closed 0 3)) [.upTo 0] := by decide

-- src/test/raw_interval/minus.rs:308
example : SameSet ((RawInterval.upTo 3 : RawInterval Int).minus (.upTo 2)) [.rightOpen 2 3] := by decide

-- src/test/raw_interval/minus.rs:309
example : SameSet ((RawInterval.upTo 3 : RawInterval Int).minus (.upFrom 2)) [.to 2] := by decide

-- src/test/raw_interval/minus.rs:310
example : SameSet ((RawInterval.upTo 3 : RawInterval Int).minus (.to 2)) [.opn 2 3] := by decide

-- src/test/raw_interval/minus.rs:311
example : SameSet ((RawInterval.upTo 3 : RawInterval Int).minus (.frm 2)) [.upTo 2] := by decide

-- src/test/raw_interval/minus.rs:312
example : SameSet ((RawInterval.upTo 3 : RawInterval Int).minus .full) [] := by decide

-- src/test/raw_interval/minus.rs:319
example : SameSet ((RawInterval.upTo 3 : RawInterval Int).minus .empty) [.upTo 3] := by decide

-- src/test/raw_interval/minus.rs:320
example : SameSet ((RawInterval.upTo 3 : RawInterval Int).minus (.point (-3))) [.upTo (-3), .opn (-3) 3] := by decide

-- src/test/raw_interval/minus.rs:321
example : SameSet ((RawInterval.upTo 3 : RawInterval Int).minus (.opn (-3) (-1))) [.to (-3), .rightOpen (-1) 3] := by decide

-- src/test/raw_interval/minus.rs:322
example : SameSet ((RawInterval.upTo 3 : RawInterval Int).minus (.leftOpen (-3) (-1))) [.to (-3), .opn (-1) 3] := by decide

-- src/test/raw_interval/minus.rs:323
example : SameSet ((RawInterval.upTo 3 : RawInterval Int).minus (.rightOpen (-3) (-1))) [.upTo (-3), .rightOpen (-1) 3] := by decide

-- src/test/raw_interval/minus.rs:324
example : SameSet ((RawInterval.upTo 3 : RawInterval Int).minus (.closed (-3) (-1))) [.upTo (-3), .opn (-1) 3] := by decide

-- src/test/raw_interval/minus.rs:325
example : SameSet ((RawInterval.upTo 3 : RawInterval Int).minus (.upTo (-3))) [.rightOpen (-3) 3] := by decide

-- src/test/raw_interval/minus.rs:326
example : SameSet ((RawInterval.upTo 3 : RawInterval Int).minus (.upFrom (-3))) [.to (-3)] := by decide

-- src/test/raw_interval/minus.rs:327
example : SameSet ((RawInterval.upTo 3 : RawInterval Int).minus (.to (-3))) [.opn (-3) 3] := by decide

-- src/test/raw_interval/minus.rs:328
example : SameSet ((RawInterval.upTo 3 : RawInterval Int).minus (.frm (-3))) [.upTo (-3)] := by decide

-- src/test/raw_interval/minus.rs:329
example : SameSet ((RawInterval.upTo 3 : RawInterval Int).minus .full) [] := by decide

-- src/test/raw_interval/minus.rs:336
example : SameSet ((RawInterval.upTo 3 : RawInterval Int).minus .empty) [.upTo 3] := by decide

-- src/test/raw_interval/minus.rs:337
example : SameSet ((RawInterval.upTo 3 : RawInterval Int).minus (.point 13)) [.upTo 3] := by decide

-- src/test/raw_interval/minus.rs:338
example : SameSet ((RawInterval.upTo 3 : RawInterval Int).minus (.opn 10 13)) [.upTo 3] := by decide

-- src/test/raw_interval/minus.rs:339
example : SameSet ((RawInterval.upTo 3 : RawInterval Int).minus (.leftOpen 10 13)) [.upTo 3] := by decide

-- src/test/raw_interval/minus.rs:340
example : SameSet ((RawInterval.upTo 3 : RawInterval Int).minus (.rightOpen 10 13)) [.upTo 3] := by decide

-- src/test/raw_interval/minus.rs:341
example : SameSet ((RawInterval.upTo 3 : RawInterval Int).minus (.closed 10 13)) [.upTo 3] := by decide

-- src/test/raw_interval/minus.rs:342
example : SameSet ((RawInterval.upTo 3 : RawInterval Int).minus (.upTo 13)) [] := by decide

-- src/test/raw_interval/minus.rs:343
example : SameSet ((RawInterval.upTo 3 : RawInterval Int).minus (.upFrom 13)) [.upTo 3] := by decide

-- src/test/raw_interval/minus.rs:344
example : SameSet ((RawInterval.upTo 3 : RawInterval Int).minus (.to 13)) [] := by decide

-- src/test/raw_interval/minus.rs:345
example : SameSet ((RawInterval.upTo 3 : RawInterval Int).minus (.frm 13)) [.upTo 3] := by decide

-- src/test/raw_interval/minus.rs:346
example : SameSet ((RawInterval.upTo 3 : RawInterval Int).minus .full) [] := by decide

-- src/test/raw_interval/minus.rs:353
example : SameSet ((RawInterval.upFrom 0 : RawInterval Int).minus .empty) [.upFrom 0] := by decide

-- src/test/raw_interval/minus.rs:354
example : SameSet ((RawInterval.upFrom 0 : RawInterval Int).minus (.point 2)) [.opn 0 2, .upFrom 2] := by decide

-- src/test/raw_interval/minus.rs:355
example : SameSet ((RawInterval.upFrom 0 : RawInterval Int).minus (.opn 0 3)) [.frm 3] := by decide

-- src/test/raw_interval/minus.rs:356
example : SameSet ((RawInterval.upFrom 0 : RawInterval Int).minus (.leftOpen 0 3)) [.upFrom 3] := by decide

-- src/test/raw_interval/minus.rs:357
example : SameSet ((RawInterval.upFrom 0 : RawInterval Int).minus (.rightOpen 0 3)) [.frm 3] := by decide

-- src/test/raw_interval/minus.rs:358
example : SameSet ((RawInterval.upFrom 0 : RawInterval Int).minus (.closed 0 3)) [.upFrom 3] := by decide

-- src/test/raw_interval/minus.rs:359
example : SameSet ((RawInterval.upFrom 0 : RawInterval Int).minus (.upTo 2)) [.frm 2] := by decide

-- src/test/raw_interval/minus.rs:360
example : SameSet ((RawInterval.upFrom 0 : RawInterval Int).minus (.upFrom 2)) [.leftOpen 0 2] := by decide

-- src/test/raw_interval/minus.rs:361
example : SameSet ((RawInterval.upFrom 0 : RawInterval Int).minus (.to 2)) [.upFrom 2] := by decide

-- src/test/raw_interval/minus.rs:362
example : SameSet ((RawInterval.upFrom 0 : RawInterval Int).minus (.frm 2)) [.opn 0 2] := by decide

-- src/test/raw_interval/minus.rs:363
example : SameSet ((RawInterval.upFrom 0 : RawInterval Int).minus .full) [] := by decide

-- src/test/raw_interval/minus.rs:370
example : SameSet ((RawInterval.upFrom 0 : RawInterval Int).minus .empty) [.upFrom 0] := by decide

-- src/test/raw_interval/minus.rs:371
example : SameSet ((RawInterval.upFrom 0 : RawInterval Int).minus (.point (-3))) [.upFrom 0] := by decide

-- src/test/raw_interval/minus.rs:372
example : SameSet ((RawInterval.upFrom 0 : RawInterval Int).minus (.opn (-3) (-1))) [.upFrom 0] := by decide

-- src/test/raw_interval/minus.rs:373
example : SameSet ((RawInterval.upFrom 0 : RawInterval Int).minus (.leftOpen (-3) (-1))) [.upFrom 0] := by decide

-- src/test/raw_interval/minus.rs:374
example : SameSet ((RawInterval.upFrom 0 : RawInterval Int).minus (.rightOpen (-3) (-1))) [.upFrom 0] := by decide

-- src/test/raw_interval/minus.rs:375
example : SameSet ((RawInterval.upFrom 0 : RawInterval Int).minus (.closed (-3) (-1))) [.upFrom 0] := by decide

-- src/test/raw_interval/minus.rs:376
example : SameSet ((RawInterval.upFrom 0 : RawInterval Int).minus (.upTo (-3))) [.upFrom 0] := by decide

-- src/test/raw_interval/minus.rs:377
example : SameSet ((RawInterval.upFrom 0 : RawInterval Int).minus (.upFrom (-3))) [] := by decide

-- src/test/raw_interval/minus.rs:378
example : SameSet ((RawInterval.upFrom 0 : RawInterval Int).minus (.to (-3))) [.upFrom 0] := by decide

-- src/test/raw_interval/minus.rs:379
example : SameSet ((RawInterval.upFrom 0 : RawInterval Int).minus (.frm (-3))) [] := by decide

-- src/test/raw_interval/minus.rs:380
example : SameSet ((RawInterval.upFrom 0 : RawInterval Int).minus .full) [] := by decide

-- src/test/raw_interval/minus.rs:387
example : SameSet ((RawInterval.upFrom 0 : RawInterval Int).minus .empty) [.upFrom 0] := by decide

-- src/test/raw_interval/minus.rs:388
example : SameSet ((RawInterval.upFrom 0 : RawInterval Int).minus (.point 13)) [.opn 0 13, .upFrom 13] := by decide

-- src/test/raw_interval/minus.rs:389
example : SameSet ((RawInterval.upFrom 0 : RawInterval Int).minus (.opn 10 13)) [.leftOpen 0 10, .frm 13] := by decide

-- src/test/raw_interval/minus.rs:390
example : SameSet ((RawInterval.upFrom 0 : RawInterval Int).minus (.leftOpen 10 13)) [.leftOpen 0 10, .upFrom 13] := by decide

-- src/test/raw_interval/minus.rs:391
example : SameSet ((RawInterval.upFrom 0 : RawInterval Int).minus (.rightOpen 10 13)) [.opn 0 10, .frm 13] := by decide

-- src/test/raw_interval/minus.rs:392
example : SameSet ((RawInterval.upFrom 0 : RawInterval Int).minus (.closed 10 13)) [.opn 0 10, .upFrom 13] := by decide

-- src/test/raw_interval/minus.rs:393
example : SameSet ((RawInterval.upFrom 0 : RawInterval Int).minus (.upTo 13)) [.frm 13] := by decide

-- src/test/raw_interval/minus.rs:394
example : SameSet ((RawInterval.upFrom 0 : RawInterval Int).minus (.upFrom 13)) [.leftOpen 0 13] := by decide

-- src/test/raw_interval/minus.rs:395
example : SameSet ((RawInterval.upFrom 0 : RawInterval Int).minus (.to 13)) [.upFrom 13] := by decide

-- src/test/raw_interval/minus.rs:396
example : SameSet ((RawInterval.upFrom 0 : RawInterval Int).minus (.frm 13)) [.opn 0 13] := by decide

-- src/test/raw_interval/minus.rs:397
example : SameSet ((RawInterval.upFrom 0 : RawInterval Int).minus .full) [] := by decide

-- src/test/raw_interval/minus.rs:404
example : SameSet ((RawInterval.to 3 : RawInterval Int).minus .empty) [.to 3] := by decide

-- src/test/raw_interval/minus.rs:405
example : SameSet ((RawInterval.to 3 : RawInterval Int).minus (.point 2)) [.upTo 2, .leftOpen 2 3] := by decide

-- src/test/raw_interval/minus.rs:406
example : SameSet ((RawInterval.to 3 : RawInterval Int).minus (.opn 0 3)) [.to 0, .point 3] := by decide

-- src/test/raw_interval/minus.rs:407
example : SameSet ((RawInterval.to 3 : RawInterval Int).minus (.leftOpen 0 3)) [.to 0] := by decide

-- src/test/raw_interval/minus.rs:408
example : SameSet ((RawInterval.to 3 : RawInterval Int).minus (.rightOpen 0 3)) [.upTo 0, .point 3] := by decide

-- src/test/raw_interval/minus.rs:409
example : SameSet ((RawInterval.to 3 : RawInterval Int).minus (.closed 0 3)) [.upTo 0] := by decide

-- src/test/raw_interval/minus.rs:410
example : SameSet ((RawInterval.to 3 : RawInterval Int).minus (.upTo 2)) [.closed 2 3] := by decide

-- src/test/raw_interval/minus.rs:411
example : SameSet ((RawInterval.to 3 : RawInterval Int).minus (.upFrom 2)) [.to 2] := by decide

-- src/test/raw_interval/minus.rs:412
example : SameSet ((RawInterval.to 3 : RawInterval Int).minus (.to 2)) [.leftOpen 2 3] := by decide

-- src/test/raw_interval/minus.rs:413
example : SameSet ((RawInterval.to 3 : RawInterval Int).minus (.frm 2)) [.upTo 2] := by decide

-- src/test/raw_interval/minus.rs:414
example : SameSet ((RawInterval.to 3 : RawInterval Int).minus .full) [] := by decide

-- src/test/raw_interval/minus.rs:421
example : SameSet ((RawInterval.to 3 : RawInterval Int).minus .empty) [.to 3] := by decide

-- src/test/raw_interval/minus.rs:422
example : SameSet ((RawInterval.to 3 : RawInterval Int).minus (.point (-3))) [.upTo (-3), .leftOpen (-3) 3] := by decide

-- src/test/raw_interval/minus.rs:423
example : SameSet ((RawInterval.to 3 : RawInterval Int).minus (.opn (-3) (-1))) [.to (-3), .closed (-1) 3] := by decide

-- src/test/raw_interval/minus.rs:424
example : SameSet ((RawInterval.to 3 : RawInterval Int).minus (.leftOpen (-3) (-1))) [.to (-3), .leftOpen (-1) 3] := by decide

-- src/test/raw_interval/minus.rs:425
example : SameSet ((RawInterval.to 3 : RawInterval Int).minus (.rightOpen (-3) (-1))) [.upTo (-3), .closed (-1) 3] := by decide

-- src/test/raw_interval/minus.rs:426
example : SameSet ((RawInterval.to 3 : RawInterval Int).minus (.closed (-3) (-1))) [.upTo (-3), .leftOpen (-1) 3] := by decide

-- src/test/raw_interval/minus.rs:427
example : SameSet ((RawInterval.to 3 : RawInterval Int).minus (.upTo (-3))) [.closed (-3) 3] := by decide

-- src/test/raw_interval/minus.rs:428
example : SameSet ((RawInterval.to 3 : RawInterval Int).minus (.upFrom (-3))) [.to (-3)] := by decide

-- src/test/raw_interval/minus.rs:429
example : SameSet ((RawInterval.to 3 : RawInterval Int).minus (.to (-3))) [.leftOpen (-3) 3] := by decide

-- src/test/raw_interval/minus.rs:430
example : SameSet ((RawInterval.to 3 : RawInterval Int).minus (.frm (-3))) [.upTo (-3)] := by decide

-- src/test/raw_interval/minus.rs:431
example : SameSet ((RawInterval.to 3 : RawInterval Int).minus .full) [] := by decide

-- src/test/raw_interval/minus.rs:438
example : SameSet ((RawInterval.to 3 : RawInterval Int).minus .empty) [.to 3] := by decide

-- src/test/raw_interval/minus.rs:439
example : SameSet ((RawInterval.to 3 : RawInterval Int).minus (.point 13)) [.to 3] := by decide

-- src/test/raw_interval/minus.rs:440
example : SameSet ((RawInterval.to 3 : RawInterval Int).minus (.opn 10 13)) [.to 3] := by decide

-- src/test/raw_interval/minus.rs:441
example : SameSet ((RawInterval.to 3 : RawInterval Int).minus (.leftOpen 10 13)) [.to 3] := by decide

-- src/test/raw_interval/minus.rs:442
example : SameSet ((RawInterval.to 3 : RawInterval Int).minus (.rightOpen 10 13)) [.to 3] := by decide

-- src/test/raw_interval/minus.rs:443
example : SameSet ((RawInterval.to 3 : RawInterval Int).minus (.closed 10 13)) [.to 3] := by decide

-- src/test/raw_interval/minus.rs:444
example : SameSet ((RawInterval.to 3 : RawInterval Int).minus (.upTo 13)) [] := by decide

-- src/test/raw_interval/minus.rs:445
example : SameSet ((RawInterval.to 3 : RawInterval Int).minus (.upFrom 13)) [.to 3] := by decide

-- src/test/raw_interval/minus.rs:446
example : SameSet ((RawInterval.to 3 : RawInterval Int).minus (.to 13)) [] := by decide

-- src/test/raw_interval/minus.rs:447
example : SameSet ((RawInterval.to 3 : RawInterval Int).minus (.frm 13)) [.to 3] := by decide

-- src/test/raw_interval/minus.rs:448
example : SameSet ((RawInterval.to 3 : RawInterval Int).minus .full) [] := by decide

-- src/test/raw_interval/minus.rs:455
example : SameSet ((RawInterval.frm 0 : RawInterval Int).minus .empty) [.frm 0] := by decide

-- src/test/raw_interval/minus.rs:456
example : SameSet ((RawInterval.frm 0 : RawInterval Int).minus (.point 2)) [.rightOpen 0 2, .upFrom 2] := by decide

-- src/test/raw_interval/minus.rs:457
example : SameSet ((RawInterval.frm 0 : RawInterval Int).minus (.opn 0 3)) [.point 0, .frm 3] := by decide

-- src/test/raw_interval/minus.rs:458
example : SameSet ((RawInterval.frm 0 : RawInterval Int).minus (.leftOpen 0 3)) [.point 0, .upFrom 3] := by decide

-- src/test/raw_interval/minus.rs:459
example : SameSet ((RawInterval.frm 0 : RawInterval Int).minus (.rightOpen 0 3)) [.frm 3] := by decide

-- src/test/raw_interval/minus.rs:460
example : SameSet ((RawInterval.frm 0 : RawInterval Int).minus (.closed 0 3)) [.upFrom 3] := by decide

-- src/test/raw_interval/minus.rs:461
example : SameSet ((RawInterval.frm 0 : RawInterval Int).minus (.upTo 2)) [.frm 2] := by decide

-- src/test/raw_interval/minus.rs:462
example : SameSet ((RawInterval.frm 0 : RawInterval Int).minus (.upFrom 2)) [.closed 0 2] := by decide

-- src/test/raw_interval/minus.rs:463
example : SameSet ((RawInterval.frm 0 : RawInterval Int).minus (.to 2)) [.upFrom 2] := by decide

-- src/test/raw_interval/minus.rs:464
example : SameSet ((RawInterval.frm 0 : RawInterval Int).minus (.frm 2)) [.rightOpen 0 2] := by decide

-- src/test/raw_interval/minus.rs:465
example : SameSet ((RawInterval.frm 0 : RawInterval Int).minus .full) [] := by decide

-- src/test/raw_interval/minus.rs:472
example : SameSet ((RawInterval.frm 0 : RawInterval Int).minus .empty) [.frm 0] := by decide

-- src/test/raw_interval/minus.rs:473
example : SameSet ((RawInterval.frm 0 : RawInterval Int).minus (.point (-3))) [.frm 0] := by decide

-- src/test/raw_interval/minus.rs:474
example : SameSet ((RawInterval.frm 0 : RawInterval Int).minus (.opn (-3) (-1))) [.frm 0] := by decide

-- src/test/raw_interval/minus.rs:475
example : SameSet ((RawInterval.frm 0 : RawInterval Int).minus (.leftOpen (-3) (-1))) [.frm 0] := by decide

-- src/test/raw_interval/minus.rs:476
example : SameSet ((RawInterval.frm 0 : RawInterval Int).minus (.rightOpen (-3) (-1))) [.frm 0] := by decide

-- src/test/raw_interval/minus.rs:477
example : SameSet ((RawInterval.frm 0 : RawInterval Int).minus (.closed (-3) (-1))) [.frm 0] := by decide

-- src/test/raw_interval/minus.rs:478
example : SameSet ((RawInterval.frm 0 : RawInterval Int).minus (.upTo (-3))) [.frm 0] := by decide

-- src/test/raw_interval/minus.rs:479
example : SameSet ((RawInterval.frm 0 : RawInterval Int).minus (.upFrom (-3))) [] := by decide

-- src/test/raw_interval/minus.rs:480
example : SameSet ((RawInterval.frm 0 : RawInterval Int).minus (.to (-3))) [.frm 0] := by decide

-- src/test/raw_interval/minus.rs:481
example : SameSet ((RawInterval.frm 0 : RawInterval Int).minus (.frm (-3))) [] := by decide

-- src/test/raw_interval/minus.rs:482
example : SameSet ((RawInterval.frm 0 : RawInterval Int).minus .full) [] := by decide

-- src/test/raw_interval/minus.rs:489
example : SameSet ((RawInterval.frm 0 : RawInterval Int).minus .empty) [.frm 0] := by decide

-- src/test/raw_interval/minus.rs:490
example : SameSet ((RawInterval.frm 0 : RawInterval Int).minus (.point 13)) [.rightOpen 0 13, .upFrom 13] := by decide

-- src/test/raw_interval/minus.rs:491
example : SameSet ((RawInterval.frm 0 : RawInterval Int).minus (.opn 10 13)) [.closed 0 10, .frm 13] := by decide

-- src/test/raw_interval/minus.rs:492
example : SameSet ((RawInterval.frm 0 : RawInterval Int).minus (.leftOpen 10 13)) [.closed 0 10, .upFrom 13] := by decide

-- src/test/raw_interval/minus.rs:493
example : SameSet ((RawInterval.frm 0 : RawInterval Int).minus (.rightOpen 10 13)) [.rightOpen 0 10, .frm 13] := by decide

-- src/test/raw_interval/minus.rs:494
example : SameSet ((RawInterval.frm 0 : RawInterval Int).minus (.closed 10 13)) [.rightOpen 0 10, .upFrom 13] := by decide

-- src/test/raw_interval/minus.rs:495
example : SameSet ((RawInterval.frm 0 : RawInterval Int).minus (.upTo 13)) [.frm 13] := by decide

-- src/test/raw_interval/minus.rs:496
example : SameSet ((RawInterval.frm 0 : RawInterval Int).minus (.upFrom 13)) [.closed 0 13] := by decide

-- src/test/raw_interval/minus.rs:497
example : SameSet ((RawInterval.frm 0 : RawInterval Int).minus (.to 13)) [.upFrom 13] := by decide

-- src/test/raw_interval/minus.rs:498
example : SameSet ((RawInterval.frm 0 : RawInterval Int).minus (.frm 13)) [.rightOpen 0 13] := by decide

-- src/test/raw_interval/minus.rs:499
example : SameSet ((RawInterval.frm 0 : RawInterval Int).minus .full) [] := by decide

-- src/test/raw_interval/minus.rs:506
example : SameSet ((RawInterval.full : RawInterval Int).minus .empty) [.full] := by decide

-- src/test/raw_interval/minus.rs:507
example : SameSet ((RawInterval.full : RawInterval Int).minus (.point 0)) [.upTo 0, .upFrom 0] := by decide

-- src/test/raw_interval/minus.rs:508
example : SameSet ((RawInterval.full : RawInterval Int).minus (.opn 0 3)) [.to 0, .frm 3] := by decide

-- src/test/raw_interval/minus.rs:509
example : SameSet ((RawInterval.full : RawInterval Int).minus (.leftOpen 0 3)) [.to 0, .upFrom 3] := by decide

-- src/test/raw_interval/minus.rs:510
example : SameSet ((RawInterval.full : RawInterval Int).minus (.rightOpen 0 3)) [.upTo 0, .frm 3] := by decide

-- src/test/raw_interval/minus.rs:511
example : SameSet ((RawInterval.full : RawInterval Int).minus (.closed 0 3)) [.upTo 0, .upFrom 3] := by decide

-- src/test/raw_interval/minus.rs:512
example : SameSet ((RawInterval.full : RawInterval Int).minus (.upTo 0)) [.frm 0] := by decide

-- src/test/raw_interval/minus.rs:513
example : SameSet ((RawInterval.full : RawInterval Int).minus (.upFrom 0)) [.to 0] := by decide

-- src/test/raw_interval/minus.rs:514
example : SameSet ((RawInterval.full : RawInterval Int).minus (.to 0)) [.upFrom 0] := by decide

-- src/test/raw_interval/minus.rs:515
example : SameSet ((RawInterval.full : RawInterval Int).minus (.frm 0)) [.upTo 0] := by decide

-- src/test/raw_interval/minus.rs:516
example : SameSet ((RawInterval.full : RawInterval Int).minus .full) [] := by decide

end NI.Tests

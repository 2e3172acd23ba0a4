import Verif.Conformance.StreamOutput
import Verif.Props.Defaults
import Verif.Py.Repr
/-!
# The project's own unit tests, on the model: tests/settings, tests/transport/test_time_value.py,
# tests/transport/test_byte_size_value.py and tests/transport/test_environment_settings_response.py

Tests of the model, not claims (see `Conformance/StreamInput.lean`).
-/

namespace Verif
open Py StreamInput StreamOutput

mutual
/-- `repr(v)` of the values of the tests. -/
def shownValue : PyVal → String
  | .none => "None"
  | .bool b => boolRepr b
  | .str s => strRepr (fun c => 32 ≤ c.toNat && c.toNat < 127) s
  | .int i => toString i
  | .bytes b => bytesRepr b
  | .list l => listRepr (shownValues l)
  | .other _ t => t
/-- The same for the members of a list. -/
def shownValues : List PyVal → List String
  | [] => []
  | v :: l => shownValue v :: shownValues l
end

/-- 42.0 as a double. -/
def fortyTwo : F64 := ⟨0x4045000000000000, by decide⟩

/-- An interpreter that knows 42.0, and writes the other floats as the number of their bit pattern. -/
def testInterp : Interp where
  u := asciiUnicode
  repr v := .ok (shownValue v)
  float := {
    parse := fun s => if s = "42.0" then .ok fortyTwo else sampleInterp.float.parse s
    str := fun x => if x = fortyTwo then "42.0" else sampleInterp.float.str x
    parse_str := by
      intro x hx
      by_cases h : x = fortyTwo
      · rw [if_pos h, if_pos rfl, h]
      · rw [if_neg h]
        have hp := sampleInterp.float.parse_str x hx
        rw [if_neg, hp]
        intro hs
        rw [hs] at hp
        have he : sampleInterp.float.parse "42.0" = .error .value := by decide +kernel
        rw [he] at hp
        exact absurd hp (by simp) }

/-- Whether the constructor raises ValueError. -/
def refuses {α : Type} (x : Except Err α) : Bool := match x with | .error .value => true | _ => false

-- tests/settings/test_boolean_setting.py
example : (BooleanSetting "glass.half.full" false).get testInterp [] = .ok false ∧
    (BooleanSetting "glass.half.full" false).get testInterp [("glass.half.full", .bool true)] = .ok true := by
  decide +kernel

-- tests/settings/test_byte_size_value_setting.py: test_byte_size_value_setting
example :
    ((ByteSizeValueSetting testInterp "unix.v1.lines" ⟨4501, .BYTES⟩).bind (·.get testInterp [])) = .ok ⟨4501, .BYTES⟩ ∧
    ((ByteSizeValueSetting testInterp "unix.v1.lines" ⟨4501, .BYTES⟩).bind
      (·.get testInterp [("unix.v1.lines", .str "4kb")])) = .ok ⟨4, .KB⟩ ∧
    refuses (ByteSizeValueSetting testInterp "key" ⟨1, .KB⟩ ⟨0, .BYTES⟩ ⟨512, .BYTES⟩) = true ∧
    refuses (ByteSizeValueSetting testInterp "key" ⟨10, .MB⟩ ⟨15, .MB⟩ ⟨1, .GB⟩) = true ∧
    refuses (ByteSizeValueSetting testInterp "key" ⟨-2, .KB⟩ ⟨0, .BYTES⟩) = true ∧
    refuses (ByteSizeValueSetting testInterp "key" ⟨0, .BYTES⟩ ⟨-2, .KB⟩ ⟨0, .BYTES⟩) = true ∧
    refuses (ByteSizeValueSetting testInterp "key" ⟨0, .BYTES⟩ ⟨0, .BYTES⟩ ⟨-2, .KB⟩) = true := by decide +kernel
-- test_parser_read_write
example : ((SizeParser.new ⟨100, .KB⟩ ⟨5, .MB⟩ "foo").bind fun p => readsFirst SizeParser.readFrom p.writeTo.out) =
    .ok ⟨⟨100, .KB⟩, ⟨5, .MB⟩, "foo"⟩ := by decide +kernel
-- test_parsing
example :
    (SizeParser.mk ⟨5, .KB⟩ ⟨10, .KB⟩ "foo").parse testInterp "8k" = .ok ⟨8, .KB⟩ ∧
    ByteSizeValue.str asciiUnicode ⟨8, .KB⟩ = .ok "8kb" ∧
    refuses ((SizeParser.mk ⟨5, .KB⟩ ⟨10, .KB⟩ "foo").parse testInterp "not a byte size value") = true ∧
    refuses ((SizeParser.mk ⟨5, .KB⟩ ⟨10, .KB⟩ "foo").parse testInterp "-2kb") = true ∧
    refuses ((SizeParser.mk ⟨5, .KB⟩ ⟨10, .KB⟩ "foo").parse testInterp "2k") = true ∧
    refuses ((SizeParser.mk ⟨5, .KB⟩ ⟨10, .KB⟩ "foo").parse testInterp "12k") = true := by decide +kernel

/-- 24.0, 10.0, 0.0, 5.0, 100.0, -100.0, -1.0 and 101.0 as doubles. -/
def twentyFour : F64 := ⟨0x4038000000000000, by decide⟩
def ten : F64 := ⟨0x4024000000000000, by decide⟩
def zero64 : F64 := ⟨0, by decide⟩
def five : F64 := ⟨0x4014000000000000, by decide⟩
def hundred : F64 := ⟨0x4059000000000000, by decide⟩
def minusHundred : F64 := ⟨0xc059000000000000, by decide⟩
def minusOne : F64 := ⟨0xbff0000000000000, by decide⟩
def hundredAndOne : F64 := ⟨0x4059400000000000, by decide⟩

-- tests/settings/test_double_setting.py and tests/settings/test_float_setting.py: test_float_setting
example :
    ((DoubleSetting testInterp "answer.to.life" twentyFour).bind (·.get testInterp [])) = .ok twentyFour ∧
    ((DoubleSetting testInterp "answer.to.life" twentyFour).bind
      (·.get testInterp [("answer.to.life", .str "42.0")])) = .ok fortyTwo ∧
    refuses (DoubleSetting testInterp "key" ten zero64 five) = true ∧
    ((FloatSetting testInterp "answer.to.life" twentyFour).bind (·.get testInterp [])) = .ok twentyFour ∧
    ((FloatSetting testInterp "answer.to.life" twentyFour).bind
      (·.get testInterp [("answer.to.life", .str "42.0")])) = .ok fortyTwo ∧
    refuses (FloatSetting testInterp "key" ten zero64 five) = true := by decide +kernel
-- test_parser, test_parser_read_write
example :
    FloatParser.new zero64 hundred "foo" [.prop .FILTERED] = ⟨zero64, hundred, "foo", true⟩ ∧
    FloatParser.new minusHundred hundred "foo" [.prop .DYNAMIC, .prop .NODE_SCOPE] =
      ⟨minusHundred, hundred, "foo", false⟩ ∧
    readsFirst FloatParser.readDoubleFrom (FloatParser.mk minusHundred hundred "foo" false).writeDoubleTo.out =
      .ok ⟨minusHundred, hundred, "foo", false⟩ ∧
    readsFirst FloatParser.readFloatFrom (FloatParser.mk minusHundred hundred "foo" false).writeFloatTo.out =
      .ok ⟨minusHundred, hundred, "foo", false⟩ := by decide +kernel
-- test_parsing (the tests pass numbers to `parse`: what `float` leaves as they are)
example :
    (FloatParser.mk zero64 hundred "foo" false).parse testInterp "42.0" = .ok fortyTwo ∧
    refuses ((FloatParser.mk zero64 hundred "foo" false).parse testInterp "not a double") = true ∧
    refuses ((FloatParser.mk zero64 hundred "foo" false).boundsCheck minusOne) = true ∧
    refuses ((FloatParser.mk zero64 hundred "foo" false).boundsCheck hundredAndOne) = true := by decide +kernel

-- tests/settings/test_integer_setting.py: test_integer_setting
example :
    ((IntegerSetting testInterp "answer.to.life" 24).bind (·.get testInterp [])) = .ok 24 ∧
    ((IntegerSetting testInterp "answer.to.life" 24).bind
      (·.get testInterp [("answer.to.life", .str "42")])) = .ok 42 ∧
    refuses (IntegerSetting testInterp "key" 10 0 5) = true ∧
    refuses (IntegerSetting testInterp "key" 0 (-2147483648 - 1)) = true ∧
    refuses (IntegerSetting testInterp "key" 0 0 (2147483647 + 1)) = true := by decide +kernel
-- tests/settings/test_long_setting.py: test_long_setting
example :
    ((LongSetting testInterp "answer.to.life" (2 ^ 42)).bind (·.get testInterp [])) = .ok (2 ^ 42) ∧
    ((LongSetting testInterp "answer.to.life" (2 ^ 42)).bind
      (·.get testInterp [("answer.to.life", .str "42")])) = .ok 42 ∧
    refuses (LongSetting testInterp "key" 10 0 5) = true ∧
    refuses (LongSetting testInterp "key" 0 (-9223372036854775808 - 1)) = true ∧
    refuses (LongSetting testInterp "key" 0 0 (9223372036854775807 + 1)) = true := by decide +kernel
-- test_parser, test_parser_read_write
example :
    IntParser.new 32 0 100 "foo" [.prop .FILTERED] = .ok ⟨0, 100, "foo", true⟩ ∧
    IntParser.new 32 (-100) 100 "foo" [.prop .DYNAMIC, .prop .NODE_SCOPE] = .ok ⟨-100, 100, "foo", false⟩ ∧
    readsFirst IntParser.readFrom (IntParser.mk (-100) 100 "foo" false).writeTo.out = .ok ⟨-100, 100, "foo", false⟩ ∧
    IntParser.new 64 0 100 "foo" [.prop .FILTERED] = .ok ⟨0, 100, "foo", true⟩ ∧
    IntParser.new 64 (-100) 100 "foo" [.prop .DYNAMIC, .prop .NODE_SCOPE] = .ok ⟨-100, 100, "foo", false⟩ ∧
    readsFirst IntParser.readLongFrom (IntParser.mk (-100) 100 "foo" false).writeLongTo.out = .ok ⟨-100, 100, "foo", false⟩ := by
  decide +kernel
-- test_parsing
example :
    (IntParser.mk 0 100 "foo" false).parse testInterp "42" = .ok 42 ∧
    refuses ((IntParser.mk 0 100 "foo" false).parse testInterp "not an integer") = true ∧
    refuses ((IntParser.mk 0 100 "foo" false).boundsCheck (-1)) = true ∧
    refuses ((IntParser.mk 0 100 "foo" false).boundsCheck 101) = true := by decide +kernel

/-- `re.match(r"\d+", value)`, `re.match(r"\w*", value)` and `re.match(r"$\w*", value)` on ASCII values: the three
expressions of the tests. -/
def testMatch (regex value : String) : Except Err Bool :=
  if regex = "\\d+" then .ok (value.toList.head?.any Char.isDigit)
  else if regex = "\\w*" then .ok true
  else if regex = "$\\w*" then .ok (value = "" || value = "\n")
  else .error .value

-- tests/settings/test_regex_validator.py
example :
    (RegexValidator.mk "\\d+" true).validate testMatch "3" = .ok () ∧
    refuses ((RegexValidator.mk "\\d+" true).validate testMatch "three") = true ∧
    refuses ((RegexValidator.mk "\\d+" false).validate testMatch "3") = true ∧
    (RegexValidator.mk "\\d+" false).validate testMatch "three" = .ok () ∧
    readsFirst RegexValidator.readFrom (RegexValidator.mk "\\d+" true).writeTo.out = .ok ⟨"\\d+", true⟩ := by decide +kernel

-- tests/settings/test_string_setting.py
example :
    refuses (StringSetting "invalid.default" "3" (some ((RegexValidator.mk "$\\w*" true).validate testMatch))) = true ∧
    ((StringSetting "only.characters" "" (some ((RegexValidator.mk "\\w*" true).validate testMatch)) [.DYNAMIC]).bind
      (·.get testInterp [])) = .ok "" ∧
    ((StringSetting "only.characters" "" (some ((RegexValidator.mk "\\w*" true).validate testMatch)) [.DYNAMIC]).bind
      (·.get testInterp [("only.characters", .str "bar")])) = .ok "bar" := by decide +kernel

/-- The settings of tests/settings/test_settings.py. -/
def testSettings : Dict String PyVal :=
  [("foo", .str "bar"), ("baz", .int 42), ("qux", .bool true), ("bytes", .bytes [0x74, 0x65, 0x73, 0x74]),
   ("list", .list [.str "a", .str "b", .str "c"])]

/-- What the tests look up in them. -/
def lookedUp (d : Dict String PyVal) : List (Except Err (Option String)) :=
  [Settings.get testInterp d "bar", Settings.get testInterp d "bar" (some "baz"), Settings.get testInterp d "foo",
   Settings.get testInterp d "foo" (some "baz"), Settings.get testInterp d "baz", Settings.get testInterp d "qux",
   Settings.get testInterp d "bytes", Settings.get testInterp d "list"]

/-- What they expect. -/
def expectedTexts : List (Except Err (Option String)) :=
  [.ok none, .ok (some "baz"), .ok (some "bar"), .ok (some "bar"), .ok (some "42"), .ok (some "True"),
   .ok (some "b'test'"), .ok (some "['a', 'b', 'c']")]

-- tests/settings/test_settings.py
example :
    Settings.get testInterp [] "bar" = .ok none ∧ Settings.get testInterp [] "bar" (some "baz") = .ok (some "baz") ∧
    lookedUp testSettings = expectedTexts ∧ (Settings.writeTo testSettings).err = none ∧
    lookedUp (Settings.readFrom 9 [] (Settings.writeTo testSettings).out).1 = expectedTexts ∧
    (Settings.readFrom 9 [] (Settings.writeTo testSettings).out).2 = .ok [] := by decide +kernel

-- tests/transport/test_environment_settings_response.py: the response is its settings
-- (transport/environment_settings_response.py:26-35)
example : Settings.get testInterp
    (Settings.readFrom 9 [] (Settings.writeTo [("foo", .str "bar")]).out).1 "foo" = .ok (some "bar") := by
  decide +kernel

-- tests/settings/test_time_value_setting.py: test_time_value_setting
example :
    ((TimeValueSetting testInterp "time.to.sleep" ⟨8, .HOURS⟩).bind (·.get testInterp [])) = .ok ⟨8, .HOURS⟩ ∧
    ((TimeValueSetting testInterp "time.to.sleep" ⟨8, .HOURS⟩).bind
      (·.get testInterp [("time.to.sleep", .str "30m")])) = .ok ⟨30, .MINUTES⟩ ∧
    refuses (TimeValueSetting testInterp "key" ⟨1, .HOURS⟩ ⟨0, .MILLISECONDS⟩ ⟨30, .MINUTES⟩) = true ∧
    refuses (TimeValueSetting testInterp "key" ⟨10, .MINUTES⟩ ⟨15, .MINUTES⟩ ⟨30, .MINUTES⟩) = true ∧
    refuses (TimeValueSetting testInterp "key" ⟨-2, .MICROSECONDS⟩ ⟨0, .MILLISECONDS⟩) = true ∧
    refuses (TimeValueSetting testInterp "key" ⟨0, .MILLISECONDS⟩ ⟨-2, .MICROSECONDS⟩ ⟨0, .MILLISECONDS⟩) = true ∧
    refuses (TimeValueSetting testInterp "key" ⟨0, .MILLISECONDS⟩ ⟨0, .MILLISECONDS⟩ ⟨-2, .MICROSECONDS⟩) = true := by
  decide +kernel
-- test_parser_read_write, test_parser_read_write_no_max
example :
    ((TimeParser.new ⟨0, .MILLISECONDS⟩ ⟨5, .MINUTES⟩ "foo" [.prop .FILTERED]).bind fun p =>
      readsFirst TimeParser.readFrom p.writeTo.out) = .ok ⟨⟨0, .MILLISECONDS⟩, ⟨5, .MINUTES⟩, "foo", true⟩ ∧
    ((TimeParser.new ⟨0, .MILLISECONDS⟩ TimeParser.MINUS_ONE "foo" [.prop .DYNAMIC, .prop .NODE_SCOPE]).bind fun p =>
      readsFirst TimeParser.readFrom p.writeTo.out) = .ok ⟨⟨0, .MILLISECONDS⟩, TimeParser.MINUS_ONE, "foo", false⟩ := by
  decide +kernel
-- test_parsing
example :
    (TimeParser.mk ⟨5, .MINUTES⟩ ⟨10, .MINUTES⟩ "foo" false).parse testInterp "8m" = .ok ⟨8, .MINUTES⟩ ∧
    TimeValue.str asciiUnicode ⟨8, .MINUTES⟩ = .ok "8m" ∧
    refuses ((TimeParser.mk ⟨5, .MINUTES⟩ ⟨10, .MINUTES⟩ "foo" false).parse testInterp "not a time value") = true ∧
    refuses ((TimeParser.mk ⟨5, .MINUTES⟩ ⟨10, .MINUTES⟩ "foo" false).parse testInterp "-2m") = true ∧
    refuses ((TimeParser.mk ⟨5, .MINUTES⟩ ⟨10, .MINUTES⟩ "foo" false).parse testInterp "2m") = true ∧
    refuses ((TimeParser.mk ⟨5, .MINUTES⟩ ⟨10, .MINUTES⟩ "foo" false).parse testInterp "12m") = true := by
  decide +kernel

-- tests/settings/test_version_setting.py
example :
    ((VersionSetting testInterp "version" (Version.new 3000099)).get testInterp []).map (Version.str ieeeDiv) =
      .ok "3.0.0.99" ∧
    ((VersionSetting testInterp "version" (Version.new 3000099)).get testInterp [("version", .str "2110099")]).map
      (Version.str ieeeDiv) = .ok "2.11.0.99" ∧
    (SettingParser.parse testInterp VersionParser.parser "2090102").map (Version.str ieeeDiv) = .ok "2.9.1.2" := by
  decide +kernel

-- tests/transport/test_time_value.py
example :
    TimeValue.str asciiUnicode ⟨42, .SECONDS⟩ = .ok "42s" ∧
    TimeValue.parse asciiUnicode "42s" = .ok ⟨42, .SECONDS⟩ ∧ TimeValue.parse asciiUnicode "24 h" = .ok ⟨24, .HOURS⟩ ∧
    refuses (TimeValue.parse asciiUnicode "no digits") = true ∧ refuses (TimeValue.parse asciiUnicode "9 weeks") = true ∧
    TimeValue.toNanos ⟨42, .NANOSECONDS⟩ = 42 ∧ TimeValue.toNanos ⟨42, .MICROSECONDS⟩ = 42000 ∧
    TimeValue.toNanos ⟨42, .MILLISECONDS⟩ = 42000000 ∧ TimeValue.toNanos ⟨42, .SECONDS⟩ = 42000000000 ∧
    TimeValue.toNanos ⟨42, .MINUTES⟩ = 42000000000 * 60 ∧ TimeValue.toNanos ⟨42, .HOURS⟩ = 42000000000 * 3600 ∧
    TimeValue.toNanos ⟨42, .DAYS⟩ = 42000000000 * 86400 := by decide +kernel

-- tests/transport/test_byte_size_value.py
example :
    ByteSizeValue.str asciiUnicode ⟨42, .KB⟩ = .ok "42kb" ∧
    ByteSizeValue.parse asciiUnicode "42mb" = .ok ⟨42, .MB⟩ ∧ ByteSizeValue.parse asciiUnicode "42 gb" = .ok ⟨42, .GB⟩ ∧
    refuses (ByteSizeValue.parse asciiUnicode "no digits") = true ∧
    refuses (ByteSizeValue.parse asciiUnicode "100eb") = true ∧
    ByteSizeValue.toBytes ⟨42, .BYTES⟩ = 42 ∧ ByteSizeValue.toBytes ⟨42, .KB⟩ = 42 * 1024 ∧
    ByteSizeValue.toBytes ⟨42, .MB⟩ = 42 * 1024 ^ 2 ∧ ByteSizeValue.toBytes ⟨42, .GB⟩ = 42 * 1024 ^ 3 ∧
    ByteSizeValue.toBytes ⟨42, .TB⟩ = 42 * 1024 ^ 4 ∧ ByteSizeValue.toBytes ⟨42, .PB⟩ = 42 * 1024 ^ 5 := by decide +kernel

-- What the interpreter does (tried with CPython): `int` ignores the surrounding spaces, but not U+001C to
-- U+001F, which `isspace` counts as spaces; a quotient halfway between two doubles goes to the even one.
example :
    intOfStr asciiUnicode (String.ofList [Char.ofNat 32, '5', Char.ofNat 10]) = .ok 5 ∧
    intOfStr asciiUnicode (String.ofList [Char.ofNat 28, '5']) = .error .value ∧
    intOfStr asciiUnicode (String.ofList [Char.ofNat 31, '5']) = .error .value ∧
    intOfStr asciiUnicode (String.ofList ['5', Char.ofNat 31]) = .error .value := by decide +kernel
example :
    roundHalfEven (1 / 2) = 0 ∧ roundHalfEven (3 / 2) = 2 ∧ roundHalfEven (5 / 2) = 2 ∧
    roundHalfEven (7 / 5) = 1 ∧ roundHalfEven (8 / 5) = 2 ∧ roundHalfEven (29 / 20) = 1 ∧
    roundDouble (2 ^ 53 + 1) = 2 ^ 53 ∧ roundDouble (2 ^ 53 + 3) = 2 ^ 53 + 4 := by
  decide +kernel

end Verif

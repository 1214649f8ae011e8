import Verif.Sip.UriActions

/-!
# Transition table of `sip/uri_parse.go`

Generated by `tools/gentables.py`; do not edit.

One definition per state: for each range of symbols `lo..hi`, the actions executed and the next
state, as found under the label `st_case_K` at the cited line. Symbols not listed lead to the error
state 0 without any action.
-/

namespace Gosip.Sip.Uri

/-- Action sequence of the transitions below. -/
def a0 : List UAct := [.start, .lower]

/-- Action sequence of the transitions below. -/
def a1 : List UAct := [.lower]

/-- Action sequence of the transitions below. -/
def a2 : List UAct := [.scheme]

/-- Action sequence of the transitions below. -/
def a3 : List UAct := [.start, .append]

/-- Action sequence of the transitions below. -/
def a4 : List UAct := [.start]

/-- Action sequence of the transitions below. -/
def a5 : List UAct := [.append]

/-- Action sequence of the transitions below. -/
def a6 : List UAct := []

/-- Action sequence of the transitions below. -/
def a7 : List UAct := [.user]

/-- Action sequence of the transitions below. -/
def a8 : List UAct := [.hexHi]

/-- Action sequence of the transitions below. -/
def a9 : List UAct := [.hexLo]

/-- Action sequence of the transitions below. -/
def a10 : List UAct := [.pass]

/-- Action sequence of the transitions below. -/
def a11 : List UAct := [.port]

/-- Action sequence of the transitions below. -/
def a12 : List UAct := [.start, .b2, .append]

/-- Action sequence of the transitions below. -/
def a13 : List UAct := [.start, .b2]

/-- Action sequence of the transitions below. -/
def a14 : List UAct := [.host]

/-- Action sequence of the transitions below. -/
def a15 : List UAct := [.b1, .param]

/-- Action sequence of the transitions below. -/
def a16 : List UAct := [.b1]

/-- Action sequence of the transitions below. -/
def a17 : List UAct := [.b2, .param]

/-- Action sequence of the transitions below. -/
def a18 : List UAct := [.b1, .header]

/-- Action sequence of the transitions below. -/
def a19 : List UAct := [.b2, .header]

/-- `sip/uri_parse.go:198` (`st_case_1`). -/
def s1 : List Row :=
  [⟨65, 90, a0, 2⟩,
   ⟨97, 122, a0, 2⟩]

/-- `sip/uri_parse.go:242` (`st_case_2`). -/
def s2 : List Row :=
  [⟨43, 43, a1, 2⟩,
   ⟨45, 46, a1, 2⟩,
   ⟨48, 57, a1, 2⟩,
   ⟨58, 58, a2, 3⟩,
   ⟨65, 90, a1, 2⟩,
   ⟨97, 122, a1, 2⟩]

/-- `sip/uri_parse.go:278` (`st_case_3`). -/
def s3 : List Row :=
  [⟨33, 33, a3, 4⟩,
   ⟨36, 36, a3, 4⟩,
   ⟨37, 37, a4, 5⟩,
   ⟨38, 57, a3, 4⟩,
   ⟨59, 59, a3, 4⟩,
   ⟨61, 61, a3, 4⟩,
   ⟨63, 63, a3, 4⟩,
   ⟨65, 90, a3, 4⟩,
   ⟨95, 95, a3, 4⟩,
   ⟨97, 122, a3, 4⟩,
   ⟨126, 126, a3, 4⟩]

/-- `sip/uri_parse.go:339` (`st_case_4`). -/
def s4 : List Row :=
  [⟨33, 33, a5, 4⟩,
   ⟨36, 36, a5, 4⟩,
   ⟨37, 37, a6, 5⟩,
   ⟨38, 57, a5, 4⟩,
   ⟨58, 58, a7, 7⟩,
   ⟨59, 59, a5, 4⟩,
   ⟨61, 61, a5, 4⟩,
   ⟨63, 63, a5, 4⟩,
   ⟨64, 64, a7, 11⟩,
   ⟨65, 90, a5, 4⟩,
   ⟨95, 95, a5, 4⟩,
   ⟨97, 122, a5, 4⟩,
   ⟨126, 126, a5, 4⟩]

/-- `sip/uri_parse.go:380` (`st_case_5`). -/
def s5 : List Row :=
  [⟨48, 57, a8, 6⟩,
   ⟨65, 70, a8, 6⟩,
   ⟨97, 102, a8, 6⟩]

/-- `sip/uri_parse.go:405` (`st_case_6`). -/
def s6 : List Row :=
  [⟨48, 57, a9, 4⟩,
   ⟨65, 70, a9, 4⟩,
   ⟨97, 102, a9, 4⟩]

/-- `sip/uri_parse.go:430` (`st_case_7`). -/
def s7 : List Row :=
  [⟨33, 33, a3, 8⟩,
   ⟨36, 36, a3, 8⟩,
   ⟨37, 37, a4, 9⟩,
   ⟨38, 46, a3, 8⟩,
   ⟨48, 57, a3, 8⟩,
   ⟨61, 61, a3, 8⟩,
   ⟨65, 90, a3, 8⟩,
   ⟨95, 95, a3, 8⟩,
   ⟨97, 122, a3, 8⟩,
   ⟨126, 126, a3, 8⟩]

/-- `sip/uri_parse.go:492` (`st_case_8`). -/
def s8 : List Row :=
  [⟨33, 33, a5, 8⟩,
   ⟨36, 36, a5, 8⟩,
   ⟨37, 37, a6, 9⟩,
   ⟨38, 46, a5, 8⟩,
   ⟨48, 57, a5, 8⟩,
   ⟨61, 61, a5, 8⟩,
   ⟨64, 64, a10, 11⟩,
   ⟨65, 90, a5, 8⟩,
   ⟨95, 95, a5, 8⟩,
   ⟨97, 122, a5, 8⟩,
   ⟨126, 126, a5, 8⟩]

/-- `sip/uri_parse.go:536` (`st_case_9`). -/
def s9 : List Row :=
  [⟨48, 57, a8, 10⟩,
   ⟨65, 70, a8, 10⟩,
   ⟨97, 102, a8, 10⟩]

/-- `sip/uri_parse.go:561` (`st_case_10`). -/
def s10 : List Row :=
  [⟨48, 57, a9, 8⟩,
   ⟨65, 70, a9, 8⟩,
   ⟨97, 102, a9, 8⟩]

/-- `sip/uri_parse.go:592` (`st_case_11`). -/
def s11 : List Row :=
  [⟨43, 43, a0, 45⟩,
   ⟨45, 46, a0, 45⟩,
   ⟨48, 57, a0, 45⟩,
   ⟨65, 90, a0, 45⟩,
   ⟨91, 91, a6, 25⟩,
   ⟨97, 122, a0, 45⟩]

/-- `sip/uri_parse.go:688` (`st_case_12`). -/
def s12 : List Row :=
  [⟨48, 57, a11, 46⟩]

/-- `sip/uri_parse.go:748` (`st_case_13`). -/
def s13 : List Row :=
  [⟨33, 33, a12, 47⟩,
   ⟨36, 36, a12, 47⟩,
   ⟨37, 37, a13, 14⟩,
   ⟨38, 43, a12, 47⟩,
   ⟨45, 58, a12, 47⟩,
   ⟨65, 91, a12, 47⟩,
   ⟨93, 93, a12, 47⟩,
   ⟨95, 95, a12, 47⟩,
   ⟨97, 122, a12, 47⟩,
   ⟨126, 126, a12, 47⟩]

/-- `sip/uri_parse.go:868` (`st_case_14`). -/
def s14 : List Row :=
  [⟨48, 57, a8, 15⟩,
   ⟨65, 70, a8, 15⟩,
   ⟨97, 102, a8, 15⟩]

/-- `sip/uri_parse.go:893` (`st_case_15`). -/
def s15 : List Row :=
  [⟨48, 57, a9, 47⟩,
   ⟨65, 70, a9, 47⟩,
   ⟨97, 102, a9, 47⟩]

/-- `sip/uri_parse.go:919` (`st_case_16`). -/
def s16 : List Row :=
  [⟨33, 33, a3, 48⟩,
   ⟨36, 36, a3, 48⟩,
   ⟨37, 37, a4, 17⟩,
   ⟨38, 43, a3, 48⟩,
   ⟨45, 58, a3, 48⟩,
   ⟨65, 91, a3, 48⟩,
   ⟨93, 93, a3, 48⟩,
   ⟨95, 95, a3, 48⟩,
   ⟨97, 122, a3, 48⟩,
   ⟨126, 126, a3, 48⟩]

/-- `sip/uri_parse.go:1027` (`st_case_17`). -/
def s17 : List Row :=
  [⟨48, 57, a8, 18⟩,
   ⟨65, 70, a8, 18⟩,
   ⟨97, 102, a8, 18⟩]

/-- `sip/uri_parse.go:1052` (`st_case_18`). -/
def s18 : List Row :=
  [⟨48, 57, a9, 48⟩,
   ⟨65, 70, a9, 48⟩,
   ⟨97, 102, a9, 48⟩]

/-- `sip/uri_parse.go:1121` (`st_case_19`). -/
def s19 : List Row :=
  [⟨33, 33, a12, 49⟩,
   ⟨36, 36, a12, 49⟩,
   ⟨37, 37, a13, 20⟩,
   ⟨39, 43, a12, 49⟩,
   ⟨45, 58, a12, 49⟩,
   ⟨63, 63, a12, 49⟩,
   ⟨65, 91, a12, 49⟩,
   ⟨93, 93, a12, 49⟩,
   ⟨95, 95, a12, 49⟩,
   ⟨97, 122, a12, 49⟩,
   ⟨126, 126, a12, 49⟩]

/-- `sip/uri_parse.go:1245` (`st_case_20`). -/
def s20 : List Row :=
  [⟨48, 57, a8, 21⟩,
   ⟨65, 70, a8, 21⟩,
   ⟨97, 102, a8, 21⟩]

/-- `sip/uri_parse.go:1270` (`st_case_21`). -/
def s21 : List Row :=
  [⟨48, 57, a9, 49⟩,
   ⟨65, 70, a9, 49⟩,
   ⟨97, 102, a9, 49⟩]

/-- `sip/uri_parse.go:1296` (`st_case_22`). -/
def s22 : List Row :=
  [⟨33, 33, a3, 50⟩,
   ⟨36, 36, a3, 50⟩,
   ⟨37, 37, a4, 23⟩,
   ⟨39, 43, a3, 50⟩,
   ⟨45, 58, a3, 50⟩,
   ⟨63, 63, a3, 50⟩,
   ⟨65, 91, a3, 50⟩,
   ⟨93, 93, a3, 50⟩,
   ⟨95, 95, a3, 50⟩,
   ⟨97, 122, a3, 50⟩,
   ⟨126, 126, a3, 50⟩]

/-- `sip/uri_parse.go:1408` (`st_case_23`). -/
def s23 : List Row :=
  [⟨48, 57, a8, 24⟩,
   ⟨65, 70, a8, 24⟩,
   ⟨97, 102, a8, 24⟩]

/-- `sip/uri_parse.go:1433` (`st_case_24`). -/
def s24 : List Row :=
  [⟨48, 57, a9, 50⟩,
   ⟨65, 70, a9, 50⟩,
   ⟨97, 102, a9, 50⟩]

/-- `sip/uri_parse.go:1452` (`st_case_25`). -/
def s25 : List Row :=
  [⟨46, 46, a0, 26⟩,
   ⟨48, 58, a0, 26⟩,
   ⟨65, 70, a0, 26⟩,
   ⟨97, 102, a0, 26⟩]

/-- `sip/uri_parse.go:1499` (`st_case_26`). -/
def s26 : List Row :=
  [⟨46, 46, a1, 26⟩,
   ⟨48, 58, a1, 26⟩,
   ⟨65, 70, a1, 26⟩,
   ⟨93, 93, a14, 51⟩,
   ⟨97, 102, a1, 26⟩]

/-- `sip/uri_parse.go:1541` (`st_case_27`). -/
def s27 : List Row :=
  [⟨65, 90, a0, 28⟩,
   ⟨97, 122, a0, 28⟩]

/-- `sip/uri_parse.go:1581` (`st_case_28`). -/
def s28 : List Row :=
  [⟨43, 43, a1, 28⟩,
   ⟨45, 46, a1, 28⟩,
   ⟨48, 57, a1, 28⟩,
   ⟨58, 58, a2, 29⟩,
   ⟨65, 90, a1, 28⟩,
   ⟨97, 122, a1, 28⟩]

/-- `sip/uri_parse.go:1617` (`st_case_29`). -/
def s29 : List Row :=
  [⟨43, 43, a0, 52⟩,
   ⟨45, 46, a0, 52⟩,
   ⟨48, 57, a0, 52⟩,
   ⟨65, 90, a0, 52⟩,
   ⟨91, 91, a6, 43⟩,
   ⟨97, 122, a0, 52⟩]

/-- `sip/uri_parse.go:1713` (`st_case_30`). -/
def s30 : List Row :=
  [⟨48, 57, a11, 53⟩]

/-- `sip/uri_parse.go:1773` (`st_case_31`). -/
def s31 : List Row :=
  [⟨33, 33, a12, 54⟩,
   ⟨36, 36, a12, 54⟩,
   ⟨37, 37, a13, 32⟩,
   ⟨38, 43, a12, 54⟩,
   ⟨45, 58, a12, 54⟩,
   ⟨65, 91, a12, 54⟩,
   ⟨93, 93, a12, 54⟩,
   ⟨95, 95, a12, 54⟩,
   ⟨97, 122, a12, 54⟩,
   ⟨126, 126, a12, 54⟩]

/-- `sip/uri_parse.go:1893` (`st_case_32`). -/
def s32 : List Row :=
  [⟨48, 57, a8, 33⟩,
   ⟨65, 70, a8, 33⟩,
   ⟨97, 102, a8, 33⟩]

/-- `sip/uri_parse.go:1918` (`st_case_33`). -/
def s33 : List Row :=
  [⟨48, 57, a9, 54⟩,
   ⟨65, 70, a9, 54⟩,
   ⟨97, 102, a9, 54⟩]

/-- `sip/uri_parse.go:1944` (`st_case_34`). -/
def s34 : List Row :=
  [⟨33, 33, a3, 55⟩,
   ⟨36, 36, a3, 55⟩,
   ⟨37, 37, a4, 35⟩,
   ⟨38, 43, a3, 55⟩,
   ⟨45, 58, a3, 55⟩,
   ⟨65, 91, a3, 55⟩,
   ⟨93, 93, a3, 55⟩,
   ⟨95, 95, a3, 55⟩,
   ⟨97, 122, a3, 55⟩,
   ⟨126, 126, a3, 55⟩]

/-- `sip/uri_parse.go:2052` (`st_case_35`). -/
def s35 : List Row :=
  [⟨48, 57, a8, 36⟩,
   ⟨65, 70, a8, 36⟩,
   ⟨97, 102, a8, 36⟩]

/-- `sip/uri_parse.go:2077` (`st_case_36`). -/
def s36 : List Row :=
  [⟨48, 57, a9, 55⟩,
   ⟨65, 70, a9, 55⟩,
   ⟨97, 102, a9, 55⟩]

/-- `sip/uri_parse.go:2146` (`st_case_37`). -/
def s37 : List Row :=
  [⟨33, 33, a12, 56⟩,
   ⟨36, 36, a12, 56⟩,
   ⟨37, 37, a13, 38⟩,
   ⟨39, 43, a12, 56⟩,
   ⟨45, 58, a12, 56⟩,
   ⟨63, 63, a12, 56⟩,
   ⟨65, 91, a12, 56⟩,
   ⟨93, 93, a12, 56⟩,
   ⟨95, 95, a12, 56⟩,
   ⟨97, 122, a12, 56⟩,
   ⟨126, 126, a12, 56⟩]

/-- `sip/uri_parse.go:2270` (`st_case_38`). -/
def s38 : List Row :=
  [⟨48, 57, a8, 39⟩,
   ⟨65, 70, a8, 39⟩,
   ⟨97, 102, a8, 39⟩]

/-- `sip/uri_parse.go:2295` (`st_case_39`). -/
def s39 : List Row :=
  [⟨48, 57, a9, 56⟩,
   ⟨65, 70, a9, 56⟩,
   ⟨97, 102, a9, 56⟩]

/-- `sip/uri_parse.go:2321` (`st_case_40`). -/
def s40 : List Row :=
  [⟨33, 33, a3, 57⟩,
   ⟨36, 36, a3, 57⟩,
   ⟨37, 37, a4, 41⟩,
   ⟨39, 43, a3, 57⟩,
   ⟨45, 58, a3, 57⟩,
   ⟨63, 63, a3, 57⟩,
   ⟨65, 91, a3, 57⟩,
   ⟨93, 93, a3, 57⟩,
   ⟨95, 95, a3, 57⟩,
   ⟨97, 122, a3, 57⟩,
   ⟨126, 126, a3, 57⟩]

/-- `sip/uri_parse.go:2433` (`st_case_41`). -/
def s41 : List Row :=
  [⟨48, 57, a8, 42⟩,
   ⟨65, 70, a8, 42⟩,
   ⟨97, 102, a8, 42⟩]

/-- `sip/uri_parse.go:2458` (`st_case_42`). -/
def s42 : List Row :=
  [⟨48, 57, a9, 57⟩,
   ⟨65, 70, a9, 57⟩,
   ⟨97, 102, a9, 57⟩]

/-- `sip/uri_parse.go:2477` (`st_case_43`). -/
def s43 : List Row :=
  [⟨46, 46, a0, 44⟩,
   ⟨48, 58, a0, 44⟩,
   ⟨65, 70, a0, 44⟩,
   ⟨97, 102, a0, 44⟩]

/-- `sip/uri_parse.go:2524` (`st_case_44`). -/
def s44 : List Row :=
  [⟨46, 46, a1, 44⟩,
   ⟨48, 58, a1, 44⟩,
   ⟨65, 70, a1, 44⟩,
   ⟨93, 93, a14, 58⟩,
   ⟨97, 102, a1, 44⟩]

/-- `sip/uri_parse.go:648` (`st_case_45`). -/
def s45 : List Row :=
  [⟨43, 43, a1, 45⟩,
   ⟨45, 46, a1, 45⟩,
   ⟨48, 57, a1, 45⟩,
   ⟨58, 58, a14, 12⟩,
   ⟨59, 59, a14, 13⟩,
   ⟨63, 63, a14, 19⟩,
   ⟨65, 90, a1, 45⟩,
   ⟨97, 122, a1, 45⟩]

/-- `sip/uri_parse.go:704` (`st_case_46`). -/
def s46 : List Row :=
  [⟨48, 57, a11, 46⟩,
   ⟨59, 59, a6, 13⟩,
   ⟨63, 63, a6, 19⟩]

/-- `sip/uri_parse.go:815` (`st_case_47`). -/
def s47 : List Row :=
  [⟨33, 33, a5, 47⟩,
   ⟨36, 36, a5, 47⟩,
   ⟨37, 37, a6, 14⟩,
   ⟨38, 43, a5, 47⟩,
   ⟨45, 58, a5, 47⟩,
   ⟨59, 59, a15, 13⟩,
   ⟨61, 61, a16, 16⟩,
   ⟨63, 63, a15, 19⟩,
   ⟨65, 91, a5, 47⟩,
   ⟨93, 93, a5, 47⟩,
   ⟨95, 95, a5, 47⟩,
   ⟨97, 122, a5, 47⟩,
   ⟨126, 126, a5, 47⟩]

/-- `sip/uri_parse.go:981` (`st_case_48`). -/
def s48 : List Row :=
  [⟨33, 33, a5, 48⟩,
   ⟨36, 36, a5, 48⟩,
   ⟨37, 37, a6, 17⟩,
   ⟨38, 43, a5, 48⟩,
   ⟨45, 58, a5, 48⟩,
   ⟨59, 59, a17, 13⟩,
   ⟨63, 63, a17, 19⟩,
   ⟨65, 91, a5, 48⟩,
   ⟨93, 93, a5, 48⟩,
   ⟨95, 95, a5, 48⟩,
   ⟨97, 122, a5, 48⟩,
   ⟨126, 126, a5, 48⟩]

/-- `sip/uri_parse.go:1192` (`st_case_49`). -/
def s49 : List Row :=
  [⟨33, 33, a5, 49⟩,
   ⟨36, 36, a5, 49⟩,
   ⟨37, 37, a6, 20⟩,
   ⟨38, 38, a18, 19⟩,
   ⟨39, 43, a5, 49⟩,
   ⟨45, 58, a5, 49⟩,
   ⟨61, 61, a16, 22⟩,
   ⟨63, 63, a5, 49⟩,
   ⟨65, 91, a5, 49⟩,
   ⟨93, 93, a5, 49⟩,
   ⟨95, 95, a5, 49⟩,
   ⟨97, 122, a5, 49⟩,
   ⟨126, 126, a5, 49⟩]

/-- `sip/uri_parse.go:1362` (`st_case_50`). -/
def s50 : List Row :=
  [⟨33, 33, a5, 50⟩,
   ⟨36, 36, a5, 50⟩,
   ⟨37, 37, a6, 23⟩,
   ⟨38, 38, a19, 19⟩,
   ⟨39, 43, a5, 50⟩,
   ⟨45, 58, a5, 50⟩,
   ⟨63, 63, a5, 50⟩,
   ⟨65, 91, a5, 50⟩,
   ⟨93, 93, a5, 50⟩,
   ⟨95, 95, a5, 50⟩,
   ⟨97, 122, a5, 50⟩,
   ⟨126, 126, a5, 50⟩]

/-- `sip/uri_parse.go:1530` (`st_case_51`). -/
def s51 : List Row :=
  [⟨58, 58, a6, 12⟩,
   ⟨59, 59, a6, 13⟩,
   ⟨63, 63, a6, 19⟩]

/-- `sip/uri_parse.go:1673` (`st_case_52`). -/
def s52 : List Row :=
  [⟨43, 43, a1, 52⟩,
   ⟨45, 46, a1, 52⟩,
   ⟨48, 57, a1, 52⟩,
   ⟨58, 58, a14, 30⟩,
   ⟨59, 59, a14, 31⟩,
   ⟨63, 63, a14, 37⟩,
   ⟨65, 90, a1, 52⟩,
   ⟨97, 122, a1, 52⟩]

/-- `sip/uri_parse.go:1729` (`st_case_53`). -/
def s53 : List Row :=
  [⟨48, 57, a11, 53⟩,
   ⟨59, 59, a6, 31⟩,
   ⟨63, 63, a6, 37⟩]

/-- `sip/uri_parse.go:1840` (`st_case_54`). -/
def s54 : List Row :=
  [⟨33, 33, a5, 54⟩,
   ⟨36, 36, a5, 54⟩,
   ⟨37, 37, a6, 32⟩,
   ⟨38, 43, a5, 54⟩,
   ⟨45, 58, a5, 54⟩,
   ⟨59, 59, a15, 31⟩,
   ⟨61, 61, a16, 34⟩,
   ⟨63, 63, a15, 37⟩,
   ⟨65, 91, a5, 54⟩,
   ⟨93, 93, a5, 54⟩,
   ⟨95, 95, a5, 54⟩,
   ⟨97, 122, a5, 54⟩,
   ⟨126, 126, a5, 54⟩]

/-- `sip/uri_parse.go:2006` (`st_case_55`). -/
def s55 : List Row :=
  [⟨33, 33, a5, 55⟩,
   ⟨36, 36, a5, 55⟩,
   ⟨37, 37, a6, 35⟩,
   ⟨38, 43, a5, 55⟩,
   ⟨45, 58, a5, 55⟩,
   ⟨59, 59, a17, 31⟩,
   ⟨63, 63, a17, 37⟩,
   ⟨65, 91, a5, 55⟩,
   ⟨93, 93, a5, 55⟩,
   ⟨95, 95, a5, 55⟩,
   ⟨97, 122, a5, 55⟩,
   ⟨126, 126, a5, 55⟩]

/-- `sip/uri_parse.go:2217` (`st_case_56`). -/
def s56 : List Row :=
  [⟨33, 33, a5, 56⟩,
   ⟨36, 36, a5, 56⟩,
   ⟨37, 37, a6, 38⟩,
   ⟨38, 38, a18, 37⟩,
   ⟨39, 43, a5, 56⟩,
   ⟨45, 58, a5, 56⟩,
   ⟨61, 61, a16, 40⟩,
   ⟨63, 63, a5, 56⟩,
   ⟨65, 91, a5, 56⟩,
   ⟨93, 93, a5, 56⟩,
   ⟨95, 95, a5, 56⟩,
   ⟨97, 122, a5, 56⟩,
   ⟨126, 126, a5, 56⟩]

/-- `sip/uri_parse.go:2387` (`st_case_57`). -/
def s57 : List Row :=
  [⟨33, 33, a5, 57⟩,
   ⟨36, 36, a5, 57⟩,
   ⟨37, 37, a6, 41⟩,
   ⟨38, 38, a19, 37⟩,
   ⟨39, 43, a5, 57⟩,
   ⟨45, 58, a5, 57⟩,
   ⟨63, 63, a5, 57⟩,
   ⟨65, 91, a5, 57⟩,
   ⟨93, 93, a5, 57⟩,
   ⟨95, 95, a5, 57⟩,
   ⟨97, 122, a5, 57⟩,
   ⟨126, 126, a5, 57⟩]

/-- `sip/uri_parse.go:2555` (`st_case_58`). -/
def s58 : List Row :=
  [⟨58, 58, a6, 30⟩,
   ⟨59, 59, a6, 31⟩,
   ⟨63, 63, a6, 37⟩]

/-- Rows of state `k` (0 for the error state, which has no transition). -/
def rows (k : Nat) : List Row :=
  bif Nat.blt k 30 then
    bif Nat.blt k 15 then
      bif Nat.blt k 7 then
        bif Nat.blt k 3 then
          bif Nat.blt k 1 then
            []
          else
            bif Nat.blt k 2 then
              s1
            else
              s2
        else
          bif Nat.blt k 5 then
            bif Nat.blt k 4 then
              s3
            else
              s4
          else
            bif Nat.blt k 6 then
              s5
            else
              s6
      else
        bif Nat.blt k 11 then
          bif Nat.blt k 9 then
            bif Nat.blt k 8 then
              s7
            else
              s8
          else
            bif Nat.blt k 10 then
              s9
            else
              s10
        else
          bif Nat.blt k 13 then
            bif Nat.blt k 12 then
              s11
            else
              s12
          else
            bif Nat.blt k 14 then
              s13
            else
              s14
    else
      bif Nat.blt k 22 then
        bif Nat.blt k 18 then
          bif Nat.blt k 16 then
            s15
          else
            bif Nat.blt k 17 then
              s16
            else
              s17
        else
          bif Nat.blt k 20 then
            bif Nat.blt k 19 then
              s18
            else
              s19
          else
            bif Nat.blt k 21 then
              s20
            else
              s21
      else
        bif Nat.blt k 26 then
          bif Nat.blt k 24 then
            bif Nat.blt k 23 then
              s22
            else
              s23
          else
            bif Nat.blt k 25 then
              s24
            else
              s25
        else
          bif Nat.blt k 28 then
            bif Nat.blt k 27 then
              s26
            else
              s27
          else
            bif Nat.blt k 29 then
              s28
            else
              s29
  else
    bif Nat.blt k 45 then
      bif Nat.blt k 37 then
        bif Nat.blt k 33 then
          bif Nat.blt k 31 then
            s30
          else
            bif Nat.blt k 32 then
              s31
            else
              s32
        else
          bif Nat.blt k 35 then
            bif Nat.blt k 34 then
              s33
            else
              s34
          else
            bif Nat.blt k 36 then
              s35
            else
              s36
      else
        bif Nat.blt k 41 then
          bif Nat.blt k 39 then
            bif Nat.blt k 38 then
              s37
            else
              s38
          else
            bif Nat.blt k 40 then
              s39
            else
              s40
        else
          bif Nat.blt k 43 then
            bif Nat.blt k 42 then
              s41
            else
              s42
          else
            bif Nat.blt k 44 then
              s43
            else
              s44
    else
      bif Nat.blt k 52 then
        bif Nat.blt k 48 then
          bif Nat.blt k 46 then
            s45
          else
            bif Nat.blt k 47 then
              s46
            else
              s47
        else
          bif Nat.blt k 50 then
            bif Nat.blt k 49 then
              s48
            else
              s49
          else
            bif Nat.blt k 51 then
              s50
            else
              s51
      else
        bif Nat.blt k 56 then
          bif Nat.blt k 54 then
            bif Nat.blt k 53 then
              s52
            else
              s53
          else
            bif Nat.blt k 55 then
              s54
            else
              s55
        else
          bif Nat.blt k 58 then
            bif Nat.blt k 57 then
              s56
            else
              s57
          else
            bif Nat.blt k 59 then
              s58
            else
              []

/-- Actions executed when the input ends in state `k` (`switch cs` after `_test_eof`). -/
def eofActs (k : Nat) : List UAct :=
  bif k == 45 || k == 52 then [.host] else
  bif k == 47 || k == 54 then [.b1, .param] else
  bif k == 48 || k == 55 then [.b2, .param] else
  bif k == 49 || k == 56 then [.b1, .header] else
  bif k == 50 || k == 57 then [.b2, .header] else
  []

end Gosip.Sip.Uri

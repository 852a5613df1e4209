import Verif.Conformance.Basic
/-! Generated by tools/conformance.py from fundu-gnu/src/util.rs: 53 cases. -/
namespace Fundu.Conformance.GnuUtil

def wordsAre (r : Except Panic (Nat × Nat)) (l : List Nat) : Bool := match r with | .ok x => [x.1, x.2] = l | _ => false

/-- fundu-gnu/src/util.rs:129 `test_to_lowercase_u64`: 15 cases -/
example : ([
  ((b! ""), [0, 0]),
  ((b! "a"), [97, 0]),
  ((b! "A"), [97, 0]),
  ((b! "az"), [31329, 0]),
  ((b! "AZ"), [31329, 0]),
  ((b! "aZ"), [31329, 0]),
  ((b! "abcdefgh"), [7523094288207667809, 0]),
  ((b! "ABCDEFGH"), [7523094288207667809, 0]),
  ((b! "ABcdEfGh"), [7523094288207667809, 0]),
  ((b! "abcdefghi"), [7523094288207667809, 105]),
  ((b! "ABCDEFGHI"), [7523094288207667809, 105]),
  ((b! "ABcDefGHi"), [7523094288207667809, 105]),
  ((b! "abcdefghijklmnop"), [7523094288207667809, 8101815670912281193]),
  ((b! "ABCDEFGHIJKLMNOP"), [7523094288207667809, 8101815670912281193]),
  ((b! "aBcDeFGHijKlMnoP"), [7523094288207667809, 8101815670912281193])] : List (Bytes × List Nat)).all
    (fun (s, l) => wordsAre (Gnu.toLowercaseU64 s) l) = true := by decide +kernel

/-- fundu-gnu/src/util.rs:173 `test_to_lowercase_u64_with_all_gnu_ids`: 38 cases -/
example : ([
  ((b! "now"), [7827310, 0]),
  ((b! "yesterday"), [7017859899421058425, 121]),
  ((b! "tomorrow"), [8606223248749588340, 0]),
  ((b! "today"), [521325014900, 0]),
  ((b! "sec"), [6514035, 0]),
  ((b! "secs"), [1935893875, 0]),
  ((b! "second"), [110425477965171, 0]),
  ((b! "seconds"), [32480047799690611, 0]),
  ((b! "min"), [7235949, 0]),
  ((b! "mins"), [1936615789, 0]),
  ((b! "minute"), [111550860781933, 0]),
  ((b! "minutes"), [32481173182507373, 0]),
  ((b! "hour"), [1920298856, 0]),
  ((b! "hours"), [495841537896, 0]),
  ((b! "day"), [7954788, 0]),
  ((b! "days"), [1937334628, 0]),
  ((b! "week"), [1801807223, 0]),
  ((b! "weeks"), [495723046263, 0]),
  ((b! "fortnight"), [7523097625666678630, 116]),
  ((b! "fortnights"), [7523097625666678630, 29556]),
  ((b! "month"), [448629993325, 0]),
  ((b! "months"), [126892467187565, 0]),
  ((b! "year"), [1918985593, 0]),
  ((b! "years"), [495840224633, 0]),
  ((b! "last"), [1953718636, 0]),
  ((b! "this"), [1936287860, 0]),
  ((b! "next"), [1954047342, 0]),
  ((b! "first"), [500153084262, 0]),
  ((b! "third"), [431416240244, 0]),
  ((b! "fourth"), [114849345793894, 0]),
  ((b! "fifth"), [448629467494, 0]),
  ((b! "sixth"), [448630647155, 0]),
  ((b! "seventh"), [29401415075390835, 0]),
  ((b! "eighth"), [114849177102693, 0]),
  ((b! "ninth"), [448629991790, 0]),
  ((b! "tenth"), [448629990772, 0]),
  ((b! "eleventh"), [7526762259300052069, 0]),
  ((b! "twelfth"), [29401380831983476, 0])] : List (Bytes × List Nat)).all
    (fun (s, l) => wordsAre (Gnu.toLowercaseU64 s) l) = true := by decide +kernel

end Fundu.Conformance.GnuUtil

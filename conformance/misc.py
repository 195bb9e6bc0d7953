#!/usr/bin/env python3
"""Translate the tests of the bus, the pin, the clock and the interval in /repo/tests/tests_misc into lean/Verif/Tests/Parts.lean.

usage: misc.py [repository] [output file]

Statement by statement; a statement that is not recognised stops the translation of the test with a message.
"""
import os
import re
import sys

REPO = sys.argv[1] if len(sys.argv) > 1 else "/repo"
OUT = sys.argv[2] if len(sys.argv) > 2 else os.path.join(os.path.dirname(os.path.abspath(__file__)), "../lean/Verif/Tests/Parts.lean")
BUS = {"ones": "ones", "zeroes": "zeroes", "ones_to_zeroes": "onesToZeroes", "zeroes_to_ones": "zeroesToOnes", "bit_changes": "bitChanges"}
SHORT = {"z": "zeroes", "o": "ones", "zto": "zeroesToOnes", "otz": "onesToZeroes", "bc": "bitChanges"}


class Unknown(Exception):
    pass


def num(s, env):
    s = re.sub(r"'", "", s.strip())
    if not re.fullmatch(r"[\w\s+*/()x]+", s):
        raise Unknown(s)
    return int(eval(s, {}, dict(env)))


def strip(text):
    blank = lambda m: re.sub(r"[^\n]", " ", m[0])
    text = re.sub(r"/\*.*?\*/", blank, text, flags=re.S)
    return re.sub(r"//[^\n]*", blank, text)


def tests(text):
    for m in re.finditer(r"TEST_F\((\w+), (\w+)\)\s*\{", text):
        d, i = 1, m.end()
        while d:
            d += {"{": 1, "}": -1}.get(text[i], 0)
            i += 1
        yield m[1], m[2], text[m.end():i - 1], text[:m.end()].count("\n") + 1


def statements(body, line):
    """`;`-separated statements with the line each starts on."""
    pos, depth, start = 0, 0, 0
    for pos, ch in enumerate(body):
        depth += {"(": 1, "{": 1, ")": -1, "}": -1}.get(ch, 0)
        if ch == ";" and depth == 0:
            s = body[start:pos]
            lead = len(s) - len(s.lstrip())
            yield re.sub(r"\s+", " ", s).strip(), line + body[:start + lead].count("\n")
            start = pos + 1
    if body[start:].strip():
        raise Unknown(body[start:].strip()[:60])


def translate(cls, name, body, line, consts):
    out, checks = [], []
    obj, env = {}, dict(consts)   # name -> (Lean type, current state); constants

    def change(v, call):
        t, s, n = obj[v]
        obj[v] = (t, f"{v}_{n + 1}", n + 1)
        out.append(f"def {v}_{n + 1} : Except Err ({t}) := do ({call.replace('$', f'(← {s})')})")

    stats = {}
    for s, ln in statements(body, line):
        def check(e):
            checks.append(f"({ln}, {e})")

        if m := re.fullmatch(r"(?:const )?(?:constexpr )?(?:uint_fast8_t|timestamp_t|uint32_t) (\w+) = (.*)", s):
            env[m[1]] = num(m[2], env)
        elif m := re.fullmatch(r"std::bitset<6 \* 4> (\w+)\(\"([01]+)\"\)", s):
            env[m[1] + "_to_ulong"] = int(m[2], 2)
        elif m := re.fullmatch(r"constexpr uint8_t (\w+)\[\] = \{(.*)\}", s):
            env[m[1]] = [num(x, env) for x in m[2].split(",") if x.strip()]
        elif m := re.fullmatch(r"Bus_(\d+) (\w+)[({](\w+), (\w+), util::BusIdlePatternSpec::([LH])(?:, (true))?[)}]", s):
            v = m[2]
            obj[v] = (f"Bus {m[1]}", f"{v}_0", 0)
            out.append(f"def {v}_0 : Except Err (Bus {m[1]}) := Bus.init {m[1]} {num(m[3], env)} {num(m[4], env)} .{m[5]}")
        elif m := re.fullmatch(r"(\w+)\.load\(([^,]+), (\w+), sizeof\(\3\) \* 8\)", s):
            d = env[m[3]]
            change(m[1], f"$.load {num(m[2], env)} {d} {8 * len(d)}")
        elif m := re.fullmatch(r"(\w+)\.load\(([^,]+), ([^,]+), ([^,]+)\)", s):
            x = num(re.sub(r"(\w+)\.to_ulong\(\)", r"\1_to_ulong", m[3]), env)
            change(m[1], f"$.loadWord {num(m[2], env)} {x} {num(m[4], env)}")
        elif m := re.fullmatch(r"(?:auto |util::bus_stats_t )?(\w+) = (\w+)\.get_stats(?:_at)?\(([^,]+)(?:, (\d))?\)", s):
            t, st, _ = obj[m[2]]
            stats[m[1]] = f"(do $.getStats {num(m[3], env)}{' ' + m[4] if m[4] else ''} : Except Err BusStats)".replace("$", f"(← {st})")
            if t == "Clock":
                stats[m[1]] = f"(do pure ($.getStats {num(m[3], env)}) : Except Err BusStats)".replace("$", f"(← {st})")
        elif m := re.fullmatch(r"ASSERT_EQ\((\w+)\.(\w+), (.*)\)", s):
            check(f"{stats[m[1]]}.toOption.map (·.{BUS[m[2]]}) == some {num(m[3], env)}")
        elif m := re.fullmatch(r"ASSERT_EQ_BITSET\((\d+), (\w+)\.at\((\w+)\), ([\w']+)\)", s):
            check(f"(do (← {obj[m[2]][1]}).at? {m[3]} : Except Err (BitVec {m[1]})).toOption == some {num(m[4], env)}#{m[1]}")
        elif m := re.fullmatch(r"ASSERT_EQ\((\w+)\.at\((\w+)\), Bus_(\d+)::burst_t\(([\w']+)\)\)", s):
            check(f"(do (← {obj[m[1]][1]}).at? {m[2]} : Except Err (BitVec {m[3]})).toOption == some {num(m[4], env)}#{m[3]}")
        elif m := re.fullmatch(r"ASSERT_EQ_BURST\((\w+)\.at\((\w+)\), burst_(ones|zeroes)\)", s):
            v = "BitVec.allOnes _" if m[3] == "ones" else "0"
            check(f"(do (← {obj[m[1]][1]}).at? {m[2]} : Except Err ({obj[m[1]][0].replace('Bus', 'BitVec')})).toOption == some ({v})")
        elif re.fullmatch(r"Bus_\d+::burst_t burst_\w+|Init<\d+>\(.*\)|util::Clock::clock_stats_t stats", s):
            pass
        elif m := re.fullmatch(r"util::Pin<(\d+)> (\w+)\{util::PinState::(\w), util::PinState::(\w)\}", s):
            obj[m[2]] = (f"Pin {m[1]}", f"{m[2]}_0", 0)
            out.append(f"def {m[2]}_0 : Except Err (Pin {m[1]}) := .ok (Pin.init {m[1]} .{m[3]} .{m[4]})")
        elif m := re.fullmatch(r"(\w+)\.set\((\d+), util::PinState::(\w)\)", s):
            change(m[1], f"$.set {m[2]} .{m[3]}")
        elif m := re.fullmatch(r"EXPECT_EQ\( ?(\w+)\.get_stats_at\((\d+), (\d)\), StatsBuilder\{\}((?:\.\w+\(\d*\))+)\.build\(\) ?\)", s):
            f = dict(re.findall(r"\.(\w+)\((\d*)\)", m[4]))
            assert set(f) == {"z", "o", "zto", "otz", "infer_changes"}, f
            f["bc"] = int(f["zto"]) + int(f["otz"])
            del f["infer_changes"]
            want = ", ".join(f"{SHORT[k]} := {v}" for k, v in f.items())
            check(f"(do (← {obj[m[1]][1]}).getStats {m[2]} {m[3]} : Except Err BusStats).toOption == some {{ {want} }}")
        elif m := re.fullmatch(r"util::Clock (\w+)", s):
            obj[m[1]] = ("Clock", f"{m[1]}_0", 0)
            out.append(f"def {m[1]}_0 : Except Err Clock := .ok (Clock.init)")
        elif m := re.fullmatch(r"(\w+)\.(stop|start)\((\d+)\)", s):
            change(m[1], f"$.{m[2]} {m[3]}")
        elif m := re.fullmatch(r"util::interval_counter<uint64_t> (\w+)(?:\((\d+)\))?", s):
            obj[m[1]] = ("Interval", f"{m[1]}_0", 0)
            out.append(f"def {m[1]}_0 : Except Err Interval := .ok {{ {f'start := some {m[2]}' if m[2] else ''} }}")
        elif m := re.fullmatch(r"(\w+)\.start_interval\((\d+)\)", s):
            change(m[1], f"pure ($.startAt {m[2]})")
        elif m := re.fullmatch(r"ASSERT_EQ\((\w+)\.close_interval\((\d+)\), (\d+)\)", s):
            old = obj[m[1]][1]
            change(m[1], f"pure ($.close {m[2]})")
            check(f"(do pure ((← {obj[m[1]][1]}).count - (← {old}).count) : Except Err Nat).toOption == some {m[3]}")
        elif m := re.fullmatch(r"(\w+)\.reset_interval\(\)", s):
            change(m[1], "pure { $ with start := none, stop := none }")
        elif m := re.fullmatch(r"ASSERT_(TRUE|FALSE)\((\w+)\.is_(open|closed)\(\)\)", s):
            e = "i.isOpen" if m[3] == "open" else "(i.start.isSome && i.stop.isSome)"
            check(f"(do let i ← {obj[m[2]][1]}; pure {e} : Except Err Bool).toOption == some {m[1].lower()}")
        elif m := re.fullmatch(r"ASSERT_EQ\((\w+)\.(get_count|get_start|get_count_at)\((\d*)\), (\d+)\)", s):
            e = {"get_count": "i.count", "get_start": "i.getStart", "get_count_at": f"i.countAt {m[3]}"}[m[2]]
            check(f"(do let i ← {obj[m[1]][1]}; pure ({e}) : Except Err Nat).toOption == some {m[4]}")
        else:
            raise Unknown(s[:100])
    return out, checks


def main():
    text = ["import Verif.Model.Bus", "import Verif.Model.Pin", "import Verif.Model.Clock", "import Verif.Model.Interval", "import Verif.Tests.Run", "", "/-!",
            "# Tests of the bus, the pin, the clock and the interval", "",
            "Generated by conformance/misc.py, do not edit. The numbers in the lists of checks are lines of the test file.", "-/", "",
            "namespace DRAMPower.Tests", ""]
    total = 0
    for f in ["test_bus", "test_bus_extended", "test_pin", "test_clock", "test_interval"]:
        with open(f"{REPO}/tests/tests_misc/{f}.cpp") as h:
            src = strip(h.read())
        consts = {k: int(v) for k, v in re.findall(r"constexpr size_t (\w+) = (\d+);", src)}
        text += [f"/-! ## tests/tests_misc/{f}.cpp -/", ""]
        for cls, name, body, line in tests(src):
            try:
                out, checks = translate(cls, name, body, line, consts)
            except Unknown as e:
                print(f"{f} {name}: {e}", file=sys.stderr)
                continue
            total += len(checks)
            text += [f"namespace {f}.{name}", ""] + out + ["", "def checks : List (Nat × Bool) := [\n    " + ",\n    ".join(checks) + "]", "",
                     "#guard failing checks == []", "", f"end {f}.{name}", ""]
    text += ["end DRAMPower.Tests", ""]
    with open(OUT, "w") as h:
        h.write("\n".join(text))
    print(f"{total} checks")


if __name__ == "__main__":
    main()

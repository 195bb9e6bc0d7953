#!/usr/bin/env python3
"""Translate the unit tests in /repo/tests/tests_drampower into checks of the Lean model (lean/Verif/Tests/*.lean).

usage: gen.py [repository] [output directory]

Every TEST_F becomes a list of calls on the model and a list of comparisons with the values the test expects.
The translation only reads the text of the tests and of the JSON resources.
"""
import json
import os
import re
import sys
from decimal import Decimal
from fractions import Fraction

from cpp import Dbl, Env, Init, Interp, Iter, Lambda, Parser, Return, lex

REPO = sys.argv[1] if len(sys.argv) > 1 else "/repo"
OUT = sys.argv[2] if len(sys.argv) > 2 else os.path.join(os.path.dirname(os.path.abspath(__file__)), "../lean/Verif/Tests")
TESTS = os.path.join(REPO, "tests/tests_drampower")
STDS = ["DDR4", "DDR5", "LPDDR4", "LPDDR5", "LPDDR6"]


def q(x):
    """Lean text of a rational number."""
    x = Fraction(x)
    if x.denominator == 1:
        return str(x.numerator) if x >= 0 else f"({x.numerator})"
    return f"({x.numerator}/{x.denominator})"


# ---------------------------------------------------------------- symbolic results of the model
class Sym:
    def __init__(self, e, k):
        self.e, self.k = e, k

    def rat(self):
        return f"({self.e} : Rat)" if self.k == "rat" else f"(({self.e} : Nat) : Rat)"


COUNTERS = {n: (n, "nat") for n in ["act", "pre", "reads", "writes", "refAllBank", "refPerBank", "refPerTwoBanks", "refDualBanks",
                                    "refSameBank", "readAuto", "writeAuto"]}
CYCLES = {n: (n, "nat") for n in ["act", "pre", "powerDownAct", "powerDownPre", "selfRefresh", "deepSleepMode"]}
PREPOS = {n: (n, "nat") for n in ["readMerged", "readMergedTime", "writeMerged", "writeMergedTime", "readSeamless", "writeSeamless"]}
BUS = {"ones": ("ones", "nat"), "zeroes": ("zeroes", "nat"), "ones_to_zeroes": ("onesToZeroes", "nat"),
       "zeroes_to_ones": ("zeroesToOnes", "nat"), "bit_changes": ("bitChanges", "nat")}
SIM = {n: (n, "BUS") for n in ["commandBus", "readBus", "writeBus", "clockStats", "wClockStats", "readDBI", "writeDBI", "readDQSStats",
                               "writeDQSStats"]}
SIM.update({"bank": ("bank", "list CYCLESTATS"), "rank_total": ("rankTotal", "list CYCLESTATS"), "togglingStats": ("toggling", "TOGGLING")})
INFO = {"E_act": "eAct", "E_pre": "ePre", "E_bg_act": "eBgAct", "E_bg_pre": "eBgPre", "E_RD": "eRD", "E_WR": "eWR", "E_RDA": "eRDA",
        "E_WRA": "eWRA", "E_pre_RDA": "ePreRDA", "E_pre_WRA": "ePreWRA", "E_ref_AB": "eRefAB", "E_ref_PB": "eRefPB",
        "E_ref_SB": "eRefSB", "E_ref_2B": "eRef2B", "E_ref_DB": "eRefDB"}
INFO = {k: (v, "rat") for k, v in INFO.items()}
ENERGY = {"bank_energy": ("bank", "list INFO"), "E_bg_act_shared": ("shared.bgActShared", "rat"), "E_PDNA": ("shared.pdnA", "rat"),
          "E_PDNP": ("shared.pdnP", "rat"), "E_sref": ("shared.sref", "rat"), "E_dsm": ("shared.dsm", "rat"),
          "E_refab": ("shared.refab", "rat")}
KINDS = {"SIM": SIM, "BUS": BUS, "CYCLESTATS": {"counter": ("counter", "COUNTERS"), "cycles": ("cycles", "CYCLES"),
                                                "prepos": ("prepos", "PREPOS")},
         "COUNTERS": COUNTERS, "CYCLES": CYCLES, "PREPOS": PREPOS, "INFO": INFO, "ENERGY": ENERGY,
         "IFINFO": {"controller": ("controller", "IFENERGY"), "dram": ("dram", "IFENERGY")},
         "IFENERGY": {"dynamicEnergy": ("dynamic", "rat"), "staticEnergy": ("static", "rat")},
         "RANK": {"banks": ("banks", "fun BANK"), "counter": ("", "RANKCOUNTER")},
         "RANKCOUNTER": {"selfRefresh": ("selfRefreshCounter", "nat"), "deepSleepMode": ("deepSleepCounter", "nat")},
         "BANK": {"counter": ("counter", "COUNTERS")}}
METHODS = {("ENERGY", "total"): ("total", "rat"), ("ENERGY", "aggregated_bank_energy"): ("aggregated", "INFO"),
           ("INFO", "total"): ("total", "rat"), ("IFINFO", "total"): ("total", "rat"), ("CYCLES", "activeTime"): ("act", "nat")}


class Rec:
    """A concrete SimulationStats (or part of one) filled in by a test."""

    def __init__(self, kind):
        self.kind, self.f = kind, {}

    def get(self, n):
        if n not in self.f:
            k = {"TOGGLING": {"read": ("", "BUS"), "write": ("", "BUS")}}.get(self.kind, KINDS.get(self.kind, {}))[n][1]
            self.f[n] = 0 if k == "nat" else [] if k.startswith("list") else Rec(k)
        return self.f[n]

    def lean(self):
        out = []
        for n, v in self.f.items():
            if self.kind == "SIM" and n == "togglingStats":
                out += [f"toggling{m.capitalize()} := {b.lean()}" for m, b in v.f.items()]
                continue
            ln = KINDS[self.kind][n][0]
            if isinstance(v, Rec):
                out.append(f"{ln} := {v.lean()}")
            elif isinstance(v, list):
                out.append(f"{ln} := [{', '.join(x.lean() for x in v)}]")
            else:
                out.append(f"{ln} := {v}")
        return "{ " + ", ".join(out) + " }" if out else "{}"


# ---------------------------------------------------------------- the memory specification
DOMAINS = {"DDR4": ["dd", "pp"], "DDR5": ["dd", "pp"], "LPDDR4": ["1", "2"], "LPDDR5": ["1", "2h", "2l"], "LPDDR6": ["1", "2c", "2d"]}


def load(std):
    with open(f"{TESTS}/resources/{std.lower()}.json") as f:
        return json.load(f, parse_float=lambda s: Fraction(Decimal(s)))["memspec"]


class Spec:
    """The fields of MemSpec* a test reads, and the assignments it makes."""

    def __init__(self, std):
        j = load(std)
        a, t = j["memarchitecturespec"], j["memtimingspec"]
        lp5 = std in ("LPDDR5", "LPDDR6")
        self.std, self.over = std, {}
        self.v = {"numberOfBanks": a["nbrOfBanks"], "numberOfRanks": a["nbrOfRanks"], "numberOfBankGroups": a["nbrOfBankGroups"],
                  "numberOfDevices": a["nbrOfDevices"], "bitWidth": a["width"], "burstLength": a["burstLength"], "dataRate": a["dataRate"],
                  "vddq": Dbl.of(j["mempowerspec"]["vddq"]), "memTimingSpec.tCK": Dbl.of(t["tCK"])}
        for k in ("WL", "WR", "RBTP"):
            if k in t:
                self.v[f"memTimingSpec.t{k}"] = t[k]
        if std == "DDR4":
            self.v["memPowerSpec[0].vXX"] = Dbl.of(j["mempowerspec"]["vdd"])
        if lp5:
            self.v["memTimingSpec.WCKtoCK"] = t["WCK2CK"]
            self.v["memTimingSpec.tWCK"] = Dbl.of(t["tCK"] / t["WCK2CK"])

    def copy(self):
        s = Spec.__new__(Spec)
        s.std, s.over, s.v = self.std, dict(self.over), dict(self.v)
        return s


class Path:
    """A member access below a specification."""

    def __init__(self, spec, p):
        self.spec, self.p = spec, p


# field of MemSpec* -> fields of the model: c(ore), p(ower), i(nterface), w(ires)
FIELDS = {"numberOfBanks": ["c.numberOfBanks", "p.banks"], "numberOfRanks": ["c.numberOfRanks", "p.ranks", "i.ranks"],
          "numberOfBankGroups": ["c.numberOfBankGroups", "p.bankGroups", "i.bankGroups"], "banksPerGroup": ["c.banksPerGroup"],
          "numberOfDevices": ["p.devices", "i.devices"], "bitWidth": ["i.bitWidth", "w.bitWidth"],
          "burstLength": ["p.burstLength", "i.burstLength"], "dataRate": ["p.dataRate", "i.dataRate", "w.dataRate"],
          "bank_arch": ["c.bankArch", "p.arch", "i.arch"], "wckAlwaysOnMode": ["i.wckAlwaysOn"], "vddq": ["w.vddq"],
          "prechargeOffsetRD": ["c.prechargeOffsetRD"], "prechargeOffsetWR": ["c.prechargeOffsetWR"],
          "perTwoBankOffset": ["c.perTwoBankOffset"], "bwParams.bwPowerFactRho": ["p.rho"],
          "memTimingSpec.tRAS": ["c.tRAS", "p.tRAS"], "memTimingSpec.tRP": ["c.tRP", "p.tRP"], "memTimingSpec.tRFC": ["c.tRFC", "p.tRFC"],
          "memTimingSpec.tRFCAB": ["c.tRFC", "p.tRFC"], "memTimingSpec.tRFCPB": ["c.tRFCPB", "p.tRFCpb"],
          "memTimingSpec.tRFCsb": ["c.tRFCsb", "p.tRFCpb"], "memTimingSpec.tRFCDB": ["c.tRFCDB", "p.tRFCpb"],
          "memTimingSpec.tREFI": ["p.tREFI"], "memTimingSpec.tCK": ["p.tCK", "w.tCK"], "memTimingSpec.tWCK": ["p.tWCK", "w.tWCK"],
          "memTimingSpec.tRCD": ["c.tRCD"], "memTimingSpec.tRCDR": ["c.tRCDR"], "memTimingSpec.tRCDW": ["c.tRCDW"],
          "memTimingSpec.WCKtoCK": ["i.wckToCk"],
          # only read while the specification is constructed
          "memTimingSpec.tRTP": [], "memTimingSpec.tRBTP": [], "memTimingSpec.tWR": [], "memTimingSpec.tWL": [], "memTimingSpec.tAL": [],
          "memTimingSpec.tBurst": [],
          "prePostamble.read_zeroes": ["w.ambles.readZeroes"], "prePostamble.write_zeroes": ["w.ambles.writeZeroes"],
          "prePostamble.read_zeroes_to_ones": ["w.ambles.readZeroesToOnes"],
          "prePostamble.write_zeroes_to_ones": ["w.ambles.writeZeroesToOnes"],
          # never read
          "prePostamble.read_ones": [], "prePostamble.write_ones": [], "prePostamble.read_ones_to_zeroes": [],
          "prePostamble.write_ones_to_zeroes": [], "prePostamble.readMinTccd": [], "prePostamble.writeMinTccd": []}
CURRENTS = {"vXX": "v", "iXX0": "i0", "iXX2N": "i2n", "iXX3N": "i3n", "iXX2P": "i2p", "iXX3P": "i3p", "iXX4R": "i4r", "iXX4W": "i4w",
            "iXX5X": "i5x", "iXX5C": "i5c", "iXX6N": "i6n", "iBeta": "iBeta",
            "vDDX": "v", "iDD0X": "i0", "iDD2NX": "i2n", "iDD3NX": "i3n", "iDD2PX": "i2p", "iDD3PX": "i3p", "iDD4RX": "i4r",
            "iDD4WX": "i4w", "iDD5X": "i5x", "iDD5PBX": "i5pb", "iDD5PDBX": "i5pb", "iDD6X": "i6n", "iDD6DSX": "i6ds"}
WIRES = {"R_eq": "rEq", "dyn_E": "dynE", "termination": "termination"}


def const(v):
    if isinstance(v, bool):
        return "true" if v else "false"
    if isinstance(v, Dbl):
        return q(v.q)
    return str(v)


def setup(spec, toggling):
    """Lean text of the specification after the assignments of the test."""
    parts = {"c": [], "p": [], "i": [], "w": []}
    doms, imp, amb = {}, {}, []
    for p, v in spec.over.items():
        m = re.fullmatch(r"memPowerSpec\[(\d+)\]\.(\w+)", p)
        if m:
            doms.setdefault(int(m[1]), []).append(f"{CURRENTS[m[2]]} := {const(v)}")
            continue
        m = re.fullmatch(r"memImpedanceSpec\.(\w+?)_(R_eq|dyn_E|termination)", p)
        if m:
            imp.setdefault(m[1], []).append(f"{WIRES[m[2]]} := {const(v)}")
            continue
        for f in FIELDS[p]:
            if f.startswith("w.ambles."):
                amb.append(f"{f[9:]} := {const(v)}")
            else:
                parts[f[0]].append(f"{f[2:]} := {const(v)}")
    b = spec.std.lower()
    if doms:
        d = f"{b}.power.domains"
        for k, fs in sorted(doms.items()):
            d = f"{d}.modify {k} fun d => {{ d with {', '.join(fs)} }}"
            d = f"({d})"
        parts["p"].append(f"domains := {d}")
    if imp:
        fs = [f"{w} := {{ {b}.wires.imp.{w} with {', '.join(x)} }}" for w, x in imp.items()]
        parts["w"].append(f"imp := {{ {b}.wires.imp with {', '.join(fs)} }}")
    if amb:
        parts["w"].append(f"ambles := {{ {b}.wires.ambles with {', '.join(amb)} }}")
    if toggling:
        parts["i"].append(f"toggling := some ({toggling[0]}, {toggling[1]})")
    names = {"c": "core", "p": "power", "i": "iface", "w": "wires"}
    out = [f"  {names[k]} := {{ {b}.{names[k]} with {', '.join(v)} }}" for k, v in parts.items() if v]
    return f"{{ {b} with\n" + ",\n".join(out) + " }" if out else b


# ---------------------------------------------------------------- stand-ins
class Data(list):
    """A byte array of the test file."""


def coord(c):
    names = ["bank", "bankGroup", "rank", "row", "column"]
    out = [f"{n} := {v}" for n, v in zip(names, c) if v]
    return "{ " + ", ".join(out) + " }" if out else "{}"


def command(c, names):
    assert 2 <= len(c) <= 5, c
    fs = [f"t := {c[0]}", f"type := .{c[1]}"]
    if len(c) > 2 and any(c[2]):
        fs.append(f"co := {coord(c[2])}")
    if len(c) > 4 and c[4]:
        fs.append(f"nBits := {c[4]}")
    if len(c) > 3 and c[3] is not None:
        fs.append(f"data := some {names[id(c[3])]}")
    return "{ " + ", ".join(fs) + " }"


class Ddr:
    def __init__(self, host, std, spec, toggling):
        self.host, self.std, self.spec, self.toggling = host, std, spec.copy(), toggling
        self.ops, self.n = [], {"stats": 0, "energies": 0, "infos": 0, "cores": 0}
        self.name = f"run{len(host.objs)}"
        host.objs.append(self)

    def log(self, kind, op, k):
        self.ops.append(op)
        i = self.n[kind]
        self.n[kind] += 1
        return Sym(f"{self.name}.{kind}[{i}]!", k)


class Calc:
    def __init__(self, host, std, spec):
        self.host, self.std, self.spec = host, std, spec.copy()
        self.calls = []
        self.name = f"calc{len(host.objs)}"
        host.objs.append(self)


class Host:
    def __init__(self, arrays):
        self.line, self.objs, self.checks = 0, [], []
        self.arrays = arrays

    # ---- names
    def name(self, ns, args):
        n = ns[-1]
        if n in ("ASSERT_EQ", "EXPECT_EQ"):
            return self.eq
        if n == "EXPECT_DOUBLE_EQ":
            return self.eq
        if n in ("ASSERT_TRUE", "EXPECT_TRUE"):
            return self.true
        if n == "this":
            return self.fixture
        if len(ns) > 1 and ns[-2] == "CmdType":
            return n
        if len(ns) > 1 and ns[-2] == "TogglingRateIdlePattern":
            return n
        if len(ns) > 1 and ns[-2] in ("MemSpecLPDDR5", "BankArchitectureMode") and n in ("MBG", "M16B", "M8B"):
            return Enum("." + n.lower())
        if n == "nullptr":
            return None
        if n in ("true", "false"):
            return n == "true"
        if n == "TEST_RESOURCE_DIR" or n == "path":
            return "" if n == "TEST_RESOURCE_DIR" else (lambda x: "")
        if n == "parse_memspec_from_file":
            return lambda p: p[:-5].upper()
        if n == "from_memspec":
            return lambda d: Spec(d)
        if n == "make_unique":
            return lambda *a: self.make(args[-1], a)
        if n == "static_cast":
            return lambda x: self.cast(args[-1], x)
        if n in ("round", "floor"):
            return lambda x: self.cast(n, x)
        if n in ("SimulationStats",):
            return lambda: Rec("SIM")
        if n == "TogglingStats":
            return lambda: Rec("TOGGLING")
        if n == "TargetCoordinate":
            return lambda *a: a[0] if len(a) == 1 and isinstance(a[0], Init) else Init(a)
        if len(ns) > 1 and ns[-2] == "VoltageDomain":
            return {"VDD": 0}[n]
        if n == "ToggleRateDefinition":
            return lambda *a: list(a[0])
        if n == "SimConfig":
            return lambda a: a[0] if isinstance(a, Init) else a
        if n.endswith("TestAccessor"):
            return Accessor()
        raise NameError(f"line {self.line}: {'::'.join(ns)}")

    def make(self, t, a):
        if t.startswith("MemSpec"):
            return a[0].copy()
        if t.startswith("InterfaceCalculation_"):
            return Calc(self, t[21:], a[0])
        if t in STDS:
            return Ddr(self, t, a[0], self.rates(a[1]) if len(a) > 1 else None)
        raise NameError(t)

    def rates(self, d):
        def one(r, c, p):
            return f"direction {q(r.q)} {q(c.q)} .{p}"
        return one(d[0], d[2], d[4]), one(d[1], d[3], d[5])

    def default(self, t, args):
        if t == "SimulationStats":
            return Rec("SIM")
        if t == "vector":
            return []
        return None

    def construct(self, t, args, v):
        return self.make(t, v)

    def from_init(self, t, args, v):
        if t == "uint8_t":
            return Data(v)
        return list(v) if t == "vector" else v

    def copy(self, v):
        return v

    def cast(self, t, v):
        if isinstance(v, Sym):
            if t in ("double", "float"):
                return Sym(v.rat(), "rat") if v.k == "nat" else v
            if v.k == "nat":
                return v
            f = {"round": "nearest", "floor": "whole"}.get(t, "whole")
            return Sym(f"{f} {v.rat()}", "rat")
        if isinstance(v, Dbl):
            if t in ("double", "float"):
                return v
            import math
            if t == "round":
                return math.floor(v.f + 0.5)
            return math.floor(v.f) if v.f >= 0 else -math.floor(-v.f)
        if t in ("double", "float"):
            return Dbl.of(v)
        return v

    # ---- members
    def member(self, o, n):
        if isinstance(o, Sym):
            if o.k.startswith("list"):
                if n == "size":
                    return lambda: Sym(f"{o.e}.length", "nat")
                if n == "at":
                    return lambda i: self.index(o, i)
            if (o.k, n) in METHODS:
                f, k = METHODS[o.k, n]
                return lambda: Sym(f"{o.e}.{f}", k)
            if o.k == "TOGGLING":
                return Sym(f"{o.e}{n.capitalize()}", "BUS")
            f, k = KINDS[o.k][n]
            return Sym(f"{o.e}.{f}" if f else o.e, k)
        if isinstance(o, Rec):
            return o.get(n)
        if isinstance(o, Spec):
            return self.path(o, n)
        if isinstance(o, Path):
            return self.path(o.spec, f"{o.p}.{n}")
        if isinstance(o, Ddr):
            return self.method(o, n)
        if isinstance(o, Calc):
            assert n == "calculateEnergy"
            return lambda st: self.calculate(o, st)
        if isinstance(o, Accessor):
            assert n == "getRanks"
            return lambda c: Ranks(c)
        if isinstance(o, Ranks):
            assert n == "at"
            return lambda i: Sym(f"({o.core.e}.ranks {i})", "RANK")
        if isinstance(o, Init) and n == "timestamp":
            return o[0]
        if isinstance(o, list):
            if n == "size":
                return lambda: len(o)
            if n == "push_back":
                return lambda x: o.append(x)
            if n == "back":
                return lambda: o[-1]
            if n == "begin":
                return lambda: Iter(o, 0)
            if n == "end":
                return lambda: Iter(o, len(o))
            if n == "at":
                return lambda i: o[i]
            if n == "data":
                return lambda: o
            if n == "resize":
                return lambda k: o.extend(Rec("CYCLESTATS") for _ in range(k))
        if isinstance(o, Env):
            return o.v[n]
        if isinstance(o, Extensions):
            assert n == "withExtension"
            return lambda f: self.interp.invoke(f, [o])
        raise AttributeError(f"line {self.line}: {type(o)} {n}")

    def path(self, spec, p):
        if p in spec.v:
            return spec.v[p]
        if p in spec.over:
            return spec.over[p]
        return Path(spec, p)

    def set_member(self, o, n, v):
        if isinstance(o, Rec):
            o.f[n] = v
            return
        spec, p = (o, n) if isinstance(o, Spec) else (o.spec, f"{o.p}.{n}")
        if p.endswith((".iXX5PB_B", ".tRFCsb_slr")):
            raise AttributeError(p)
        old = spec.v.get(p)
        if isinstance(old, Dbl):
            v = Dbl.of(v)
        spec.over[p] = v
        spec.v[p] = v

    def index(self, o, i):
        if isinstance(o, Sym):
            if o.k.startswith("fun "):
                return Sym(f"({o.e} {i})", o.k[4:])
            return Sym(f"{o.e}[{i}]!", o.k[5:])
        if isinstance(o, Path):
            return Path(o.spec, f"{o.p}[{i}]")
        return o[i]

    def method(self, d, n):
        if n == "doCoreCommand":
            return lambda c: d.ops.append(f".core {command(c, self.arrays)}")
        if n == "doInterfaceCommand":
            return lambda c: d.ops.append(f".iface {command(c, self.arrays)}")
        if n == "doCommand":
            return lambda c: d.ops.append(f".both {command(c, self.arrays)}")
        if n == "getStats":
            return lambda: d.log("stats", ".stats", "SIM")
        if n == "getWindowStats":
            return lambda t: d.log("stats", f".window {t}", "SIM")
        if n == "calcCoreEnergy":
            return lambda t: d.log("energies", f".coreEnergy {t}", "ENERGY")
        if n == "calcInterfaceEnergy":
            return lambda t: d.log("infos", f".ifaceEnergy {t}", "IFINFO")
        if n == "getCore":
            return lambda: d.log("cores", ".look", "CORE")
        if n == "getExtensionManager":
            return lambda: Extensions(d)
        if n == "enable":
            return lambda t, e: d.ops.append(f".dbi {const(e)}")
        raise AttributeError(f"line {self.line}: {n}")

    def calculate(self, c, st):
        i = len(c.calls)
        c.calls.append(st.lean())
        return Sym(f"{c.name}[{i}]!", "IFINFO")

    # ---- arithmetic and checks
    def binop(self, op, a, b):
        if isinstance(a, str) or isinstance(b, str):
            return b if op == "/" else NotImplemented
        if not isinstance(a, Sym) and not isinstance(b, Sym):
            return NotImplemented
        x, y = self.rat(a), self.rat(b)
        if op in "+-*/":
            return Sym(f"({x} {op} {y})", "rat")
        return Sym(f"decide ({x} {op} {y})", "bool")

    def rat(self, a):
        return a.rat() if isinstance(a, Sym) else const(a) if not isinstance(a, Dbl) else q(a.q)

    def eq(self, a, b):
        if not isinstance(a, Sym) and not isinstance(b, Sym):
            x = a.f if isinstance(a, Dbl) else a
            y = b.f if isinstance(b, Dbl) else b
            assert x == y, f"line {self.line}: {x} {y}"
            return
        if isinstance(b, Sym) and not isinstance(a, Sym):
            a, b = b, a
        if isinstance(b, Sym):
            e = f"{a.e} == {b.e}" if a.k == b.k else f"{a.rat()} == {b.rat()}"
        elif a.k == "nat" and isinstance(b, int):
            e = f"{a.e} == {b}"
        else:
            e = f"{a.rat()} == {self.rat(b)}"
        self.checks.append((self.line, e))

    def true(self, a):
        if isinstance(a, Sym):
            self.checks.append((self.line, a.e))
        else:
            assert a, f"line {self.line}"


class Enum(str):
    pass


class Accessor:
    pass


class Ranks:
    def __init__(self, core):
        self.core = core


class Extensions:
    """The extension manager; also stands for the DBI extension it hands out."""

    def __init__(self, d):
        self.d = d


_member = Host.member


def member(self, o, n):
    if isinstance(o, Extensions) and n == "enable":
        return self.method(o.d, "enable")
    return _member(self, o, n)


Host.member = member


# ---------------------------------------------------------------- output
def translate(path, prefix):
    with open(path) as f:
        arrays, classes, tests = Parser(lex(f.read())).file()
    rel = os.path.relpath(path, REPO)
    data, ids, glob = [], {}, Env()
    boot = Interp(Host({}))
    for n, d in arrays.items():
        v = Data(boot.ev(d[3], glob))
        glob.v[n] = v
        ids[id(v)] = f"{prefix}.{n}"
        data.append((n, v))
    keep, seen = [], set()
    out = [f"/-! ## {rel} -/", ""]
    def bytes_(n, v):
        rows = [", ".join(map(str, v[i:i + 32])) for i in range(0, len(v), 32)]
        return [f"def {prefix}.{n} : List UInt8 := [\n  " + ",\n  ".join(rows) + "]", ""]

    for n, v in data:
        out += bytes_(n, v)
    count = 0
    for cls, test, body, line in tests:
        host = Host(ids)
        ip = Interp(host)
        host.interp = ip
        env = Env(glob)
        host.fixture = env
        members, methods, ctor = classes[cls]
        for n, (ps, b) in methods.items():
            env.v[n] = Lambda(env, ps, b)
        for m in members:
            ip.run(m, env)
        for n, v in env.v.items():
            if isinstance(v, Data):
                keep.append(v)
                ids[id(v)] = f"{prefix}.{n}"
                if n not in seen:
                    seen.add(n)
                    out += bytes_(n, v)
        if ctor:
            ip.run(ctor, env)
        if "SetUp" in methods:
            ip.invoke(env.v["SetUp"], [])
        ip.run(body, env)
        if not host.checks:
            continue
        ns = f"{prefix}.{test}" if sum(t[1] == test for t in tests) == 1 else f"{prefix}.{cls}.{test}"
        out += [f"namespace {ns}", ""]
        used = {e.split("[")[0].split(".")[0].strip("(") for _, e in host.checks} | {
            m for _, e in host.checks for m in re.findall(r"(?:run|calc)\d+", e)}
        oks = []
        for o in host.objs:
            if o.name not in used:
                continue
            if isinstance(o, Ddr):
                s = setup(o.spec, o.toggling)
                ops = ",\n    ".join(o.ops)
                out += [f"def {o.name} : Log := run .{o.std.lower()} ({s}) [\n    {ops}]", ""]
                oks.append(f"(0, {o.name}.ok)")
            else:
                s = setup(o.spec, None)
                cs = ",\n    ".join(o.calls)
                out += [f"def {o.name} : List InterfaceInfo := calculate .{o.std.lower()} ({s}) [\n    {cs}]", ""]
        cs = oks + [f"({l}, {e})" for l, e in host.checks]
        out += ["def checks : List (Nat × Bool) := [\n    " + ",\n    ".join(cs) + "]", "",
                "#guard failing checks == []", "", f"end {ns}", ""]
        count += len(host.checks)
    return out, count, len(tests)


def header(title, imports):
    return [f"import Verif.Tests.{i}" for i in imports] + ["", "/-!", f"# {title}", "",
            "Generated by conformance/gen.py, do not edit. The numbers in the lists of checks are lines of the test file.", "-/", "",
            "namespace DRAMPower.Tests", ""]


def resources():
    out = header("The JSON resources of the tests", ["Run"])
    for std in STDS:
        j = load(std)
        a, t, p, b = j["memarchitecturespec"], j["memtimingspec"], j["mempowerspec"], j.get("bankwisespec")
        lp = std.startswith("LP")
        cfg = {"banks": a["nbrOfBanks"], "bankGroups": a["nbrOfBankGroups"], "ranks": a["nbrOfRanks"], "devices": a["nbrOfDevices"],
               "burstLength": a["burstLength"], "dataRate": a["dataRate"], "tCK": q(t["tCK"]), "ras": t["RAS"], "wl": t["WL"], "wr": t["WR"],
               "rp": t["RPpb"] if lp else t["RP"]}
        if not lp:
            cfg["refMode"] = {1: ".one", 2: ".two", 4: ".four"}.get(a["RefMode"], ".invalid")
        cfg["rcd"] = {"LPDDR5": t.get("RCD_S"), "LPDDR6": 0}.get(std, t.get("RCD"))
        if std in ("LPDDR5", "LPDDR6"):
            cfg.update(wck2ck=t["WCK2CK"], rbtp=t["RBTP"])
        else:
            cfg["rtp"] = t["RTP"]
        if std == "LPDDR6":
            cfg.update(rcdR=t["RCD_r"], rcdW=t["RCD_w"])
        if std == "DDR4":
            cfg.update(al=t["AL"], rfc1=t["RFC1"], rfc2=t["RFC2"], rfc4=t["RFC4"])
        elif std == "DDR5":
            cfg.update(rfc1=t["RFC1_slr"], rfc2=t["RFC2_slr"], rfcPart=t["RFCsb_slr"])
        else:
            cfg.update(rfc1=t["RFCab"], rfcPart=t["RFCdb" if std == "LPDDR6" else "RFCpb"], refi=t["REFI"])
        doms = []
        for d in DOMAINS[std]:
            if lp:
                g = lambda n: p.get(f"idd{n}{d}", 0)
                m = {"v": p[f"vdd{d}"], "i5b": g("5"), "i5pb": g("5pdb" if std == "LPDDR6" else "5pb"), "i6n": g("6"), "i6ds": g("6ds")}
                beta = p.get(f"iBeta_vdd{d}")
            else:
                g = lambda n: p.get(f"i{d}{n}", 0)
                m = {"v": p[f"v{d}"], "i5b": g("5B") if std == "DDR4" else g("5b"), "i5f2": g("5F2") if std == "DDR4" else g("5f"),
                     "i5f4": g("5F4"), "i5c": g("5c"), "i6n": g("6n")}
                beta = p.get(f"iBeta_v{d}")
            m.update(i0=g("0"), i2n=g("2n"), i3n=g("3n"), i2p=g("2p"), i3p=g("3p"), i4r=g("4r"), i4w=g("4w"))
            fs = ", ".join(f"{k} := {q(v)}" for k, v in m.items())
            doms.append("{ " + fs + (f", iBeta := some {q(beta)}" if beta is not None else "") + " }")
        bw = []
        if b:
            if "factRho" in b:
                bw.append(f"factRho := some {q(b['factRho'])}")
            if std == "LPDDR4" and "hasPASR" in b:
                bw.append(f"hasPASR := some {const(b['hasPASR'])}")
            if std == "LPDDR4" and "pasrMode" in b:
                bw.append(f"pasrMode := some (some {b['pasrMode']})")
        out += [f"/-- tests/tests_drampower/resources/{std.lower()}.json -/", f"def {std.lower()}Config : Config where"]
        out += [f"  {k} := {v}" for k, v in cfg.items()]
        out += ["  domains := [\n    " + ",\n    ".join(doms) + "]"]
        if b:
            out += ["  bankWise := some { " + ", ".join(bw) + " }"]
        imp = {}
        for k, v in j["memimpedancespec"].items():
            m = re.fullmatch(r"(\w+?)_(R_eq|dyn_E|termination)", k)
            imp.setdefault(m[1], []).append(f"{WIRES[m[2]]} := {const(v) if isinstance(v, bool) else q(v)}")
        imps = ",\n      ".join(f"{w} := {{ {', '.join(fs)} }}" for w, fs in imp.items())
        amb = ""
        if "prepostamble" in j:
            r = j["prepostamble"]
            amb = (f"\n    (ambles := {{ readZeroes := {q(r['read_zeroes'])}, writeZeroes := {q(r['write_zeroes'])}, "
                   f"readZeroesToOnes := {r['read_zeroes_to_ones']}, writeZeroesToOnes := {r['write_zeroes_to_ones']} }})")
        rate = j.get("dataratespec", {}).get("dqs_bus_rate", 2)
        out += ["", f"/-- See `{std.lower()}Config`. -/",
                f"def {std.lower()} : Setup := Setup.ofConfig .{std.lower()} {std.lower()}Config (width := {a['width']}) (vddq := {q(p['vddq'])})"
                f"\n    (dqsRate := {rate}) (wckAlwaysOn := {const(a.get('WCKalwaysOn', False))}){amb}\n    (imp := {{\n      {imps} }})", ""]
    out += ["end DRAMPower.Tests", ""]
    return out


def files(pattern):
    d = os.path.join(TESTS, os.path.dirname(pattern))
    key = lambda n: [int(x) if x.isdigit() else x for x in re.split(r"(\d+)", n)]
    return [os.path.join(d, f) for f in sorted(os.listdir(d), key=key) if re.fullmatch(os.path.basename(pattern), f)]


def emit(name, text):
    with open(os.path.join(OUT, name + ".lean"), "w") as f:
        f.write("\n".join(text))


def main():
    os.makedirs(OUT, exist_ok=True)
    emit("Resources", resources())
    total = 0
    groups = [(f"Core{s}", f"Tests of the {s} core", files(f"core/{s}/.*\\.cpp")) for s in STDS]
    groups[0][2].extend(files(r"base/test_pattern_pre_cycles\.cpp"))
    skip = "test_dbi_lpddr6.cpp"  # calls of the formatter alone, in Verif/Tests/Formatter.lean
    groups.append(("Interface", "Tests of the interfaces",
                   [f for f in files(r"interface/test_(interface|dbi|togglingrate)_.*\.cpp") if os.path.basename(f) != skip]))
    for name, title, fs in groups:
        out = header(title, ["Resources"])
        for f in fs:
            prefix = os.path.basename(f)[:-4].replace("_test_pattern", "")
            try:
                text, n, tests = translate(f, prefix)
            except Exception as e:
                print(f"{os.path.basename(f)}: {type(e).__name__}: {e}", file=sys.stderr)
                if os.environ.get("TRACE"):
                    raise
                continue
            out += text
            total += n
        out += ["end DRAMPower.Tests", ""]
        emit(name, out)
    print(f"{total} checks")


if __name__ == "__main__":
    main()

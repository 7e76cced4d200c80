"""Generate lean/Verif/Objects/Tables.lean from SurfaceData and L1AProcessingData of /repo (read as text)."""
import ast
import re

R = "/repo/dedop/model/"
OUT = "/verif/lean/Verif/Objects/Tables.lean"


def q(names):
    return "[" + ", ".join('"%s"' % n for n in names) + "]"


def getter(f, b):
    m = re.fullmatch(r"return self\['(\w+)'\]", b)
    if m:
        return '.cell "%s"' % m[1]
    m = re.fullmatch(r"if '(\w+)' not in self\._data:\n    self\._data\['(\w+)'\] = False; return self\['(\w+)'\]", b)
    if m and m[1] == m[2] == m[3]:
        return '.cellOrFalse "%s"' % m[1]
    m = re.fullmatch(r"return \(self\.(\w+), self\.(\w+), self\.(\w+)\)", b) or \
        re.fullmatch(r"return np\.asmatrix\(\[self\.(\w+), self\.(\w+), self\.(\w+)\]\)\.T", b)
    if m:
        return ".view " + q(m.groups())
    m = re.fullmatch(r"return self\._?vel_sat_sar\[(\d), 0\]", b)
    if m:
        return ".vel " + m[1]
    if b == "return self._vel_sat_sar":
        return ".velAll"
    if b.startswith("if self._vel_sat_norm is None:"):
        return ".norm"
    m = re.fullmatch(r"return self\.(_\w+)", b)
    if m:
        return '.field "%s"' % m[1]
    calc = {"closest_burst": ["stack_bursts", "closest_burst_index"], "gps_time_surf": ["time_surf"],
            "leap_secs_since_2000": ["time_sar_ku", "days", "seconds"]}
    if f.name in calc:
        used = re.findall(r"self\.(\w+)", b)
        assert [u for u in used if u != "cst"] == calc[f.name], used
        return ".derived " + q(calc[f.name])
    if f.name in ("h", "cai", "fai"):
        return ".undeclared"
    raise SystemExit("getter %s: %s" % (f.name, b))


def setter(f, b):
    m = re.fullmatch(r"self\['(\w+)'\] = value", b)
    if m:
        return '.cell "%s"' % m[1]
    m = re.fullmatch(r"self\.(\w+), self\.(\w+), self\.(\w+) = value", b)
    if m:
        return ".view " + q(m.groups())
    m = re.fullmatch(r"self\._vel_sat_sar\[(\d), 0\] = value", b)
    if m:
        return ".vel " + m[1]
    if b == "; ".join("self._vel_sat_sar[%d, 0] = value[%d]" % (i, i) for i in range(3)):
        return ".velAll"
    m = re.fullmatch(r"self\.(_\w+) = value", b)
    if m:
        return '.field "%s"' % m[1]
    raise SystemExit("setter %s: %s" % (f.name, b))


def gen(file, cls, tag):
    c = [n for n in ast.parse(open(R + file).read()).body if isinstance(n, ast.ClassDef) and n.name == cls][0]
    rows, live, methods, first, last = [], {}, [], 10 ** 6, 0
    for f in c.body:
        if not isinstance(f, ast.FunctionDef):
            continue
        deco = [ast.unparse(d) for d in f.decorator_list]
        body = "; ".join(ast.unparse(s) for s in f.body
                         if not (isinstance(s, ast.Expr) and isinstance(s.value, ast.Constant)))
        if deco == ["property"]:
            live[f.name] = dict(name=f.name, line=f.lineno, g=getter(f, body), s=None, d=None)
            first = min(first, f.lineno - 1)
            rows.append(live[f.name])
        elif deco == [f.name + ".setter"]:
            live[f.name]["s"] = setter(f, body)
        elif deco == [f.name + ".deleter"]:
            m = re.fullmatch(r"del self\['(\w+)'\]", body)
            live[f.name]["d"] = m[1]
        elif not deco:
            methods.append(f.name)
        else:
            raise SystemExit("%s %s" % (f.name, deco))
        if deco:
            last = max(last, f.end_lineno)
    items = ['⟨"%s", %s, %s, %s⟩' % (r["name"], r["g"], "some (%s)" % r["s"] if r["s"] else "none",
                                    'some "%s"' % r["d"] if r["d"] else "none") for r in rows]
    lines = ", ".join("%s %d" % (r["name"], r["line"]) for r in rows if not r["g"].startswith(".cell \""))
    return ("/-- The attributes declared by `%s` (dedop/model/%s %d-%d), in the order of their definitions:\n"
            "name, getter, setter, deleter.  Those which do not just read one entry: %s. -/\n"
            "def %sAttrs : List Attr := [\n    %s]\n\n"
            "/-- The methods defined by `%s` (dedop/model/%s). -/\n"
            "def %sMethods : List String := %s\n"
            % (cls, file, first, last, lines, tag, ",\n    ".join(items), cls, file, tag, q(methods)))


text = ("import Verif.Objects.Model\n/-!\n# The attributes of surfaces and bursts\n\n"
        "Generated by tools/attrs.py from the source of the two classes.\n-/\nnamespace Dedop.Objects\n\n"
        + gen("surface_data.py", "SurfaceData", "surface") + "\n"
        + gen("l1a_processing_data.py", "L1AProcessingData", "burst") + "\nend Dedop.Objects\n")
open(OUT, "w").write(text)

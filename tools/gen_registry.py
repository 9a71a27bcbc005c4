#!/usr/bin/env python3
"""Extract the message table from /repo/pyzwave/commandclass (read as text with `ast`, never
imported) and write it as Lean to lean/Verif/Model/Registry.lean."""
import ast, os, sys
REPO = "/repo/pyzwave"
OUT = os.path.join(os.path.dirname(os.path.abspath(__file__)), "../lean/Verif/Model/Registry.lean")

consts = {}
def eval_const(node, env):
    if isinstance(node, ast.Constant):
        return node.value
    if isinstance(node, ast.Name):
        return env[node.id]
    raise ValueError(ast.dump(node))

for st in ast.parse(open(REPO + "/const/ZW_classcmd.py").read()).body:
    if isinstance(st, ast.Assign) and isinstance(st.targets[0], ast.Name):
        try:
            consts[st.targets[0].id] = eval_const(st.value, consts)
        except (ValueError, KeyError):
            pass

SIMPLE = {"uint8_t": ".uint 1", "uint16_t": ".uint 2", "uint32_t": ".uint 4", "HomeID": ".uint 4",
          "int24_t": ".sint 3", "uint3_t": ".ubits 3", "uint4_t": ".ubits 4", "uint5_t": ".ubits 5",
          "uint7_t": ".ubits 7", "flag_t": ".flag", "bytes_t": ".bytes", "str_t": ".str",
          "float_t": ".float", "dsk_t": ".dsk", "IPv6": ".ipv6", "Nodes": ".nodes",
          "NodeList": ".nodeList", "SensorSupported": ".sensors", "MetadataExtension": ".metaExt",
          "HeaderExtension": ".hdr", "Message": ".message", "int": ".pyint", "list": ".pylist"}
HOOKS = {("Zip", "ZipPacket", "headerExtension"): "headerExtension",
         ("Supervision", "Get", "command"): "supervisionCommand",
         ("Configuration", "Report", "value"): "configValue",
         ("NetworkManagementInclusion", "NodeAddStatus", "commandClass"): "nodeAddCommandClass",
         ("AssociationGrpInfo", "GroupCommandListReport", "commandClass"): "agiCommandClass",
         ("AssociationGrpInfo", "GroupInfoReport", "groups"): "agiGroups",
         ("NodeProvisioning", "ListIterationReport", "dsk"): "dskN",
         ("Mailbox", "NodeFailing", "queueHandle"): "nodeFailing"}
CHOOKS = {("Configuration", "Set", "value"): "configValue"}

def ftype(node, aliases):
    if isinstance(node, ast.Name):
        if node.id in aliases:
            return ftype(aliases[node.id], aliases)
        return SIMPLE[node.id]
    if isinstance(node, ast.Attribute):
        return SIMPLE[node.attr]
    if isinstance(node, ast.Call):
        fn = node.func.id
        if fn == "enum_t":
            return ftype(node.args[1], aliases)
        if fn == "bits_t":
            return ".bits %d" % node.args[0].value
        if fn == "reserved_t":
            return ".reserved %d" % node.args[0].value
    raise ValueError(ast.dump(node))

# import order of commandclass/__init__.py
mods = []
for st in ast.parse(open(REPO + "/commandclass/__init__.py").read()).body:
    if isinstance(st, ast.ImportFrom) and st.level == 1:
        mods += [a.name for a in st.names]
mods = [m for m in mods if os.path.exists(REPO + "/commandclass/%s.py" % m)]
for f in sorted(os.listdir(REPO + "/commandclass")):
    m = f[:-3]
    if f.endswith(".py") and m not in mods and m not in ("__init__", "CommandClass"):
        mods.append(m)

classes = {}   # (mod, cls) -> dict
order = []
for mod in mods:
    path = REPO + "/commandclass/%s.py" % mod
    tree = ast.parse(open(path).read())
    env = dict(consts)
    aliases = {}
    for st in tree.body:
        if isinstance(st, ast.Assign) and isinstance(st.targets[0], ast.Name):
            n = st.targets[0].id
            if n.endswith("_t"):
                aliases[n] = st.value
            else:
                try:
                    env[n] = eval_const(st.value, env)
                except (ValueError, KeyError):
                    pass
        if not isinstance(st, ast.ClassDef):
            continue
        deco = [d for d in st.decorator_list if isinstance(d, ast.Call) and getattr(d.func, "id", "") == "ZWaveMessage"]
        if not deco:
            continue
        cc, cmd = [eval_const(a, env) for a in deco[0].args]
        base = st.bases[0]
        fields, name = None, None
        if isinstance(base, ast.Attribute):
            fields = classes[(base.value.id, base.attr)]["fields"]
        for b in st.body:
            if isinstance(b, ast.Assign) and b.targets[0].id == "attributes":
                fields = []
                for e in b.value.elts:
                    n = e.elts[0].value
                    fields.append((n, ftype(e.elts[1], aliases)))
            if isinstance(b, ast.Assign) and b.targets[0].id == "NAME":
                name = b.value.value
        hooks = {}
        for b in st.body:
            if isinstance(b, ast.FunctionDef):
                if b.name.startswith("parse_"):
                    hooks[("p", b.name[6:])] = HOOKS[(mod, st.name, b.name[6:])]
                if b.name.startswith("compose_"):
                    hooks[("c", b.name[8:])] = CHOOKS[(mod, st.name, b.name[8:])]
        start = min([d.lineno for d in st.decorator_list] + [st.lineno])
        classes[(mod, st.name)] = dict(mod=mod, cls=st.name, cc=cc, cmd=cmd, name=name,
                                       fields=fields or [], hooks=hooks, lines=(start, st.end_lineno))
        order.append((mod, st.name))

if __name__ == "__main__":
    o = []
    o.append("import Verif.Model.Codec")
    o.append("/-!\n# The message table\n\nGenerated by `tools/gen_registry.py` from the `@ZWaveMessage` classes in\n"
             "`/repo/pyzwave/commandclass/` (constants from `const/ZW_classcmd.py`). Do not edit.\n-/")
    o.append("namespace Model.Reg\n")
    for k in order:
        c = classes[k]
        o.append("/-- commandclass/%s.py:%d-%d -/" % (c["mod"], *c["lines"]))
        fs = []
        for n, t in c["fields"]:
            p = c["hooks"].get(("p", n)); q = c["hooks"].get(("c", n))
            fs.append('    ⟨"%s", %s, %s, %s⟩' % (n, t, "some ." + p if p else "none", "some ." + q if q else "none"))
        body = "[]" if not fs else "[\n" + ",\n".join(fs) + "]"
        o.append('def %s.%s : MsgDef :=\n  ⟨"%s.%s", "%s", 0x%02X, 0x%02X, %s⟩\n' % (c["mod"], c["cls"], c["mod"], c["cls"], c["name"], c["cc"], c["cmd"], body))
    o.append("end Model.Reg\n\nnamespace Model\nopen Reg\n")
    o.append("/-- `ZWaveMessage` (commandclass/__init__.py:9-25,45) after importing the package. -/")
    o.append("def registry : List MsgDef := [\n" + ",\n".join("  %s.%s" % k for k in order) + "]\n")
    o.append("/-- `Message.decode` (message.py:72-75). Python's recursion limit is modelled by the nesting\nbudget of `decodeN`; here it is large enough for every packet (theorem C09). -/")
    o.append("def decode (pkt : Spec.Bytes) : Py Msg := decodeN registry (pkt.length + 1) pkt\n")
    o.append("/-- `Message.compose` (message.py:18-43). -/\ndef compose (m : Msg) : Py Spec.Bytes := composeWith registry m\n")
    o.append("end Model")
    open(OUT, "w").write("\n".join(o) + "\n")
    print(len(order), "messages")

#!/usr/bin/env python3
"""Write the functions of CalCore as syntax trees for Verif/Model/Lang.lean.

    python3 tools/translate.py /repo/src/calcore lean/Verif/Source

The source text is parsed and never run.  A construct that Lang.lean does not have is an error.
Docstrings are dropped, and so are the arguments of exceptions.  `x += e` becomes `x = x + e`;
The bodies of loops are separate definitions.  `a = b = e` becomes `a = e; b = a`; `a <= x <= b` becomes `a <= x and x <= b` (x is a variable);
a parameter `(b, e)` becomes a parameter `_t` and an assignment `b, e = _t`; an assignment to several items becomes an
assignment to variables `_t0`, `_t1`, ... and one to each item.  A method that changes its object or an argument
gets the kind `proc`; the calls of such methods are statements of their own, marked as `shared` if they change an object that
was got by `self.getEvent` or `self._getStorageManager`; `self._getStorageManager().f(...)` becomes `_m = self._getStorageManager();
_m.f(...)`, and `f(unique_id=None, **kw)` becomes `f(None, kw)`.  A call of the logger only evaluates its
arguments.
"""
import ast, re, sys

# what is translated: module -> names
WANTED = {
    'util': ['removeOverlaps'],
    'isoweek': ['getWeeksInYear', 'weeknr2datetime'],
    'recurrent': [
        'weekspan', 'monthindex',
        'BasicRecurrenceRule.__init__', 'BasicRecurrenceRule._validate', 'BasicRecurrenceRule.replace',
        'BasicRecurrenceRule.apply', 'BasicRecurrenceRule._nextRecurrence',
        'NoRecurrenceRule.apply', 'YearlyRecurrenceRule._nextRecurrence',
        'WeeklyRecurrenceRule.__init__', 'WeeklyRecurrenceRule._validate', 'WeeklyRecurrenceRule.replace',
        'WeeklyRecurrenceRule.apply', 'WeeklyRecurrenceRule._nextRecurrence',
        'MonthlyRecurrenceRule.__init__', 'MonthlyRecurrenceRule._validate', 'MonthlyRecurrenceRule.replace',
        'MonthlyRecurrenceRule._nextRecurrence', 'MonthlyRecurrenceRule.apply',
        'MonthlyRecurrenceRule._applyWeekday', 'MonthlyRecurrenceRule._applyLastWeekday',
        'BasicRecurrenceRule._tupleForComparison', 'BasicRecurrenceRule.__eq__', 'BasicRecurrenceRule.__ne__',
        'WeeklyRecurrenceRule._tupleForComparison', 'MonthlyRecurrenceRule._tupleForComparison',
        'ical_date', 'ical_datetime', 'BasicRecurrenceRule.iCalRepresentation', 'BasicRecurrenceRule._iCalArgs',
        'YearlyRecurrenceRule._iCalArgs', 'WeeklyRecurrenceRule._iCalArgs', 'MonthlyRecurrenceRule._iCalArgs',
        'BasicRecurrenceRule.__repr__', 'WeeklyRecurrenceRule.__repr__', 'MonthlyRecurrenceRule.__repr__',
        'BasicRecurrenceRule.__hash__'],
    'events': ['EventEvent.__init__', 'EventParticipationChangeEvent.__init__'],
    'cal': [
        'inPeriod', 'sameDay', 'roundtimedelta', 'assertPeriodBounded', 'segmentOccurrences',
        'Timed.__init__', 'Occurrence.__init__',
        'SearchCriteria.__init__', 'SearchCriteria.clone', 'SearchCriteria._match', 'NullSearchCriteria.__init__',
        'EventBase.getOrganizerId', 'EventBase.inCategory', 'EventBase.getAttendeeIds', 'EventBase.hasAttendee',
        'EventBase.getParticipationStatus', 'EventBase.getParticipationRole', 'EventBase.expand',
        'AttendeeBase.getAttendeeId', 'AttendeeBase.getAttendeeType',
        'StorageBase.getEvent', 'StorageBase.getEvents', 'StorageBase.getOccurrences',
        'StorageBase._getMatchingEvents',
        'StorageManagerBase.getEvent', 'StorageManagerBase.hasEvent', 'StorageManagerBase.getEvents',
        'StorageManagerBase.getOccurrences', 'StorageManagerBase.getOccurrencesSegmented',
        'StorageManagerBase.getBlockedPeriods', 'StorageManagerBase.getFreePeriods',
        'Period', 'float_datetime', 'iso8601',
        'EventSpecification.__init__', 'EventSpecification.setOnObject', 'EventSpecification.willModify',
        'EventBase.__init__', 'EventBase._initParticipationState', 'EventBase._initParticipationRole',
        'Event._initParticipationState', 'Event._initParticipationRole',
        'EventBase.invite', 'EventBase.setParticipationStatus', 'EventBase._setParticipationStatus',
        'EventBase.setParticipationRole', 'EventBase.alldayAdjust', 'EventBase.export',
        'StorageManagerBase.__init__', 'StorageManagerBase.setStorage', 'StorageManagerBase.createEventFromSpecification',
        'StorageManagerBase.deleteEvent',
        'StorageBase._initEvents', 'StorageBase._eventFactory', 'StorageBase.deleteEvent', 'StorageBase.getStorageId',
        'MemoryStorage._initEvents', 'MemoryStorage._eventFactory', 'StorageBase.createEvent',
        'AttendeeBase.__init__', 'AttendeeBase.getEvents', 'AttendeeBase.getOccurrences', 'AttendeeBase.getOrganizedEvents',
        'AttendeeBase._getStorageManager', 'Attendee.__init__', 'Attendee._getStorageManager',
        'CalendarBase.__init__', 'CalendarBase._initAttendees', 'CalendarBase.addAttendee', 'CalendarBase.removeAttendee',
        'CalendarBase.getMainAttendeeId', 'CalendarBase.getMainAttendee', 'CalendarBase._importEventSpecification',
        'CalendarBase._getDefaultOrganizer', 'CalendarBase._getDtstartDuration', 'CalendarBase._getRecurrenceRule',
        'CalendarBase._getCategories', 'CalendarBase._repairText', 'CalendarBase.import_',
        'CalendarBase._importExistingEvent', 'CalendarBase._importNewEvent', 'CalendarBase._deleteEvent', 'CalendarBase.getEvent', 'CalendarBase.hasEvent',
        'CalendarBase.getEvents', 'CalendarBase.getOccurrences', 'CalendarBase.getOccurrencesSegmented',
        'CalendarBase.getEventsInDay', 'CalendarBase.getOccurrencesInDay', 'CalendarBase.getAttendees',
        'CalendarBase._getStorageManager', 'CalendarBase._getAttendeeSource',
        'Calendar.__init__', 'Calendar._getStorageManager', 'Calendar._getAttendeeSource',
        'SimpleAttendeeSource.__init__', 'SimpleAttendeeSource.createIndividual', 'SimpleAttendeeSource.createRoom',
        'SimpleAttendeeSource.getAttendee', 'SimpleAttendeeSource.getCurrentUserAttendeeId',
        'SimpleAttendeeSource.getCurrentUserAttendee', 'SimpleAttendeeSource.findByName',
        'SimpleAttendeeSource.getAttendeesOfType', 'CalendarBase.export',
        'SimpleAttendeeSource.getAttendeeTypes', 'SimpleAttendeeSource.getAttendeeFromSpec',
        'StorageManagerBase.createEvent', 'StorageBase.__init__', 'EventBase.__hash__', 'EventBase.__cmp__',
        'CalendarVocabularyFactory', 'CalendarEventStatusVocabulary', 'CalendarEventAccessVocabulary',
        'CalendarMontlyRecurrenceTypeVocabulary', 'CalendarWeekdaysVocabulary',
        'addrspec_unique_id', 'CalendarBase.getToday', 'CalendarBase.getCurrentYear', 'CalendarBase.getRecentYears',
        'AttendeeBase.createEvent'],
}
# what the imports of each module bind
NAMES = {
    'util': {},
    'events': {},
    'isoweek': {'datetime': 'P:datetime', 'timedelta': 'P:timedelta'},
    'recurrent': {'datetime.date': 'P:date', 'datetime.datetime': 'P:datetime', 'datetime.timedelta': 'P:timedelta',
                  'calendar.monthrange': 'P:monthrange', 'Set': 'P:set'},
    'cal': {'datetime': 'P:datetime', 'timedelta': 'P:timedelta', 'date': 'P:date', 'time': 'P:time',
            'combine': 'P:combine', 'Set': 'P:set', 'ListType': 'P:list', 'TupleType': 'P:tuple',
            'util.removeOverlaps': 'F:removeOverlaps', 'icalendar.Event': 'P:icalEvent',
            'icalendar.Calendar': 'P:icalCalendar', 'icalendar.vDate': 'P:vDate',
            'icalendar.vText': 'P:vText', 'icalendar.vRecur': 'P:vRecur', 'icalendar.LocalTimezone': 'P:localTimezone',
            'SimpleTerm': 'P:simpleTerm', 'SimpleVocabulary': 'P:simpleVocabulary'},
}
# modules whose names are imported with *
STAR = {'cal': ['events']}
# methods of the program that change their object or arguments, and functions that are not pure
PROCS = {'setOnObject', '_setParticipationStatus', 'setParticipationStatus', 'setParticipationRole', 'invite', 'alldayAdjust',
         'createEvent', 'createEventFromSpecification', 'deleteEvent', 'addAttendee', 'removeAttendee', 'setStorage',
         'createIndividual', 'createRoom', 'import_', '_importExistingEvent', '_importNewEvent', '_deleteEvent'}
# parameters of a method of the storage manager that is called with keywords
PARAMS = {'createEvent': ['unique_id', 'kw']}
# methods of `self` that give an object held by it, which is changed afterwards
HELD = {'getEvent', '_getStorageManager'}
IMPURE = {'notify'}
BUILTIN = {'len': 'P:len', 'range': 'P:range', 'divmod': 'P:divmod', 'tuple': 'P:tuple', 'list': 'P:list', 'int': 'P:int',
           'cmp': 'P:cmp', 'hash': 'P:hash', 'str': 'P:str'}
FIELDS = {'year', 'month', 'day', 'hour', 'minute', 'second', 'days', 'seconds', 'microseconds', 'resolution',
          'tzinfo'}
METHS = {x: x for x in ['weekday', 'isoweekday', 'isocalendar', 'date', 'time', 'replace', 'keys', 'values', 'items', 'get',
                        'index', 'join', 'find', 'split', 'strftime', 'decoded', 'decode', 'astimezone', 'walk']}
METHS.update({'has_key': 'hasKey', 'get_inline': 'getInline', 'as_string': 'asString'})
MUTS = {x: x for x in ['append', 'extend', 'pop', 'sort', 'add']}
MUTS.update({'set_inline': 'setInline', 'add_component': 'addComponent'})
ERRORS = {'ValueError', 'KeyError', 'AssertionError', 'OverflowError', 'TypeError', 'AttributeError', 'IndexError'}
BIN = {ast.Add: 'add', ast.Sub: 'sub', ast.Mult: 'mul', ast.Div: 'div', ast.Mod: 'mod'}
CMP = {ast.Lt: 'lt', ast.LtE: 'le', ast.Gt: 'gt', ast.GtE: 'ge', ast.Eq: 'eq', ast.NotEq: 'ne', ast.Is: 'is',
       ast.IsNot: 'isNot', ast.In: 'isIn', ast.NotIn: 'notIn'}


class Unsupported(Exception):
    pass


def q(s):
    return '"' + s.replace('\\', '\\\\').replace('"', '\\"').replace('\n', '\\n').replace('\r', '\\r') + '"'


def lst(items):
    return '[' + ', '.join(items) + ']'


def dotted(e):
    if isinstance(e, ast.Name):
        return e.id
    if isinstance(e, ast.Attribute):
        d = dotted(e.value)
        return d and d + '.' + e.attr
    return None


class Module:
    def __init__(self, name, text):
        self.name = name
        self.lines = text.split('\n')
        # Python 2: parameters that are tuples
        self.tuples = {}
        out = []
        for n, line in enumerate(self.lines, 1):
            m = re.match(r'(\s*def \w+\(.*)\((\w+(?:, \w+)*)\)(\):)$', line)
            if m:
                self.tuples[n] = m.group(2).split(', ')
                line = m.group(1) + '_t' + m.group(3)
            out.append(line)
        self.tree = ast.parse('\n'.join(out).replace('10, 45, 07', '10, 45, 7'))
        self.funs, self.bases, self.globals, self.classes, self.consts = {}, [], [], set(), []
        for node in self.tree.body:
            if isinstance(node, ast.FunctionDef):
                self.funs[node.name] = node
            elif isinstance(node, ast.Assign) and isinstance(node.value, ast.List):
                self.globals.append((node.targets[0].id, node.value))
            elif isinstance(node, ast.ClassDef):
                self.classes.add(node.name)
                if node.bases and node.bases[0].id != 'object':
                    self.bases.append((node.name, node.bases[0].id))
                for sub in node.body:
                    if isinstance(sub, ast.FunctionDef):
                        self.funs[node.name + '.' + sub.name] = sub
                    elif isinstance(sub, ast.Assign) and isinstance(sub.value, ast.Constant):
                        self.consts.append((node.name + '.' + sub.targets[0].id, sub.value))


class Fun:
    def __init__(self, mod, name, node, world):
        self.mod, self.name, self.node, self.world = mod, name, node, world
        self.locals = []
        for a in node.args.args + ([node.args.kwarg] if node.args.kwarg else []):
            self.local(a.arg)
        self.params = list(self.locals)
        self.tuple = mod.tuples.get(node.lineno)
        for x in self.tuple or []:
            self.local(x)
        self.collect(node)
        self.gen = any(isinstance(n, ast.Yield) for n in ast.walk(node))
        self.proc = any(self.effect(n) for n in ast.walk(node))
        self.held = set(n.targets[0].id for n in ast.walk(node) if isinstance(n, ast.Assign) and self.holds(n.value))
        if self.gen and self.proc:
            raise Unsupported(name)
        consts = [x for m in world.values() for x, _ in m.consts]
        self.classattrs = set(x.split('.')[1] for x in consts)

    def effect(self, n):
        """changes a parameter or calls something that is not pure"""
        def param(e):
            while isinstance(e, (ast.Attribute, ast.Subscript)):
                e = e.value
            return isinstance(e, ast.Name) and e.id in self.params
        if isinstance(n, (ast.Assign, ast.AugAssign)):
            ts = n.targets if isinstance(n, ast.Assign) else [n.target]
            return any(isinstance(t, (ast.Attribute, ast.Subscript)) and param(t) for t in ts)
        if isinstance(n, ast.Delete):
            return True
        if isinstance(n, ast.Call):
            if isinstance(n.func, ast.Name):
                return n.func.id in IMPURE or n.func.id == 'setattr'
            return isinstance(n.func, ast.Attribute) and n.func.attr in PROCS
        return False

    def holds(self, e):
        """an object held by self, got by a method"""
        return (isinstance(e, ast.Call) and isinstance(e.func, ast.Attribute) and e.func.attr in HELD
                and isinstance(e.func.value, ast.Name) and e.func.value.id == 'self')

    def positional(self, e):
        """the values of f(k=v, **kw), for a method f whose parameters after those given are k and **kw"""
        if not e.keywords:
            return []
        ps = PARAMS[e.func.attr][len(e.args):]
        if [k.arg or 'kw' for k in e.keywords] != ps:
            raise Unsupported(ast.dump(e))
        return [k.value for k in e.keywords]

    def local(self, x):
        if x not in self.locals:
            self.locals.append(x)

    def collect(self, node):
        """local variables, in order of appearance"""
        for n in ast.iter_child_nodes(node):
            if isinstance(n, (ast.Assign, ast.AugAssign, ast.For, ast.comprehension)):
                ts = n.targets if isinstance(n, ast.Assign) else [n.target]
                for t in ts:
                    for m in ast.walk(t):
                        if isinstance(m, ast.Name) and isinstance(m.ctx, ast.Store):
                            self.local(m.id)
            self.collect(n)

    def resolve(self, e):
        """a library name P:x, a function F:x or a class C:x"""
        d = dotted(e)
        if d is None or d.split('.')[0] in self.locals:
            return None
        if d in NAMES[self.mod.name]:
            return NAMES[self.mod.name][d]
        if d in self.mod.classes:
            return 'C:' + d
        for m in STAR.get(self.mod.name, []):
            if d in self.world[m].classes:
                return 'C:' + d
        if d in self.mod.funs:
            return 'F:' + d
        head, _, rest = d.partition('.')
        if head in self.world and rest in self.world[head].classes:
            return 'C:' + rest
        if d in BUILTIN:
            return BUILTIN[d]
        return None

    def value(self, e):
        """a constant"""
        if isinstance(e, ast.Constant):
            v = e.value
            if v is None:
                return '.none'
            if v is True or v is False:
                return '(.bool %s)' % str(v).lower()
            if isinstance(v, int):
                return '(.int %d)' % v
            if isinstance(v, str):
                return '(.str %s)' % q(v)
        if isinstance(e, ast.Tuple):
            return '(.tuple %s)' % lst([self.value(x) for x in e.elts])
        if isinstance(e, ast.List):
            return '(.list %s)' % lst([self.value(x) for x in e.elts])
        if isinstance(e, ast.Name) and e.id == 'Unchanged':
            return '(.obj "Unchanged" [])'
        raise Unsupported(ast.dump(e))

    def args(self, e):
        if any(isinstance(a, ast.Starred) for a in e.args) or any(k.arg is None for k in e.keywords):
            raise Unsupported(ast.dump(e))
        return lst([self.expr(a) for a in e.args]) + ' ' + lst(['(%s, %s)' % (q(k.arg), self.expr(k.value)) for k in e.keywords])

    def cls(self, e):
        if isinstance(e, ast.Tuple):
            return [c for x in e.elts for c in self.cls(x)]
        r = self.resolve(e)
        if r and r.startswith('P:'):
            return ['.' + r[2:]]
        if r and r.startswith('C:'):
            return ['.user ' + q(r[2:])]
        raise Unsupported(ast.dump(e))

    def expr(self, e):
        if isinstance(e, ast.Constant):
            return '(.const %s)' % self.value(e)
        if isinstance(e, ast.UnaryOp) and isinstance(e.op, ast.USub) and isinstance(e.operand, ast.Constant):
            return '(.const (.int (-%d)))' % e.operand.value
        if isinstance(e, ast.Name):
            if e.id in self.locals:
                return '(.var %s)' % q(e.id)
            if e.id == 'Unchanged':
                return '(.const (.obj "Unchanged" []))'
            if e.id == '_marker':
                return '(.const (.obj "object" []))'
            return '(.glob %s)' % q(e.id)
        if isinstance(e, ast.Attribute):
            if e.attr == '__name__' and isinstance(e.value, ast.Attribute) and e.value.attr == '__class__':
                return '(.className %s)' % self.expr(e.value.value)
            if e.attr in self.classattrs:
                return '(.cattr %s %s)' % (self.expr(e.value), q(e.attr))
            if e.attr in FIELDS:
                return '(.field %s .%s)' % (self.expr(e.value), e.attr)
            return '(.attr %s %s)' % (self.expr(e.value), q(e.attr))
        if isinstance(e, ast.Subscript):
            return '(.index %s %s)' % (self.expr(e.value), self.expr(e.slice))
        if isinstance(e, ast.BinOp) and type(e.op) in BIN:
            return '(.bin .%s %s %s)' % (BIN[type(e.op)], self.expr(e.left), self.expr(e.right))
        if (isinstance(e, ast.Compare) and isinstance(e.left, ast.Call) and isinstance(e.left.func, ast.Name)
                and e.left.func.id == 'type' and len(e.ops) == 1 and isinstance(e.ops[0], ast.Is)):
            return '(.typeIs %s (%s))' % (self.expr(e.left.args[0]), self.cls(e.comparators[0])[0])
        if isinstance(e, ast.Compare):
            parts, left = [], e.left
            for op, right in zip(e.ops, e.comparators):
                parts.append('(.cmp .%s %s %s)' % (CMP[type(op)], self.expr(left), self.expr(right)))
                left = right
                if right is not e.comparators[-1] and not isinstance(right, ast.Name):
                    raise Unsupported(ast.dump(e))
            return self.fold('and', parts)
        if isinstance(e, ast.BoolOp):
            return self.fold('and' if isinstance(e.op, ast.And) else 'or', [self.expr(v) for v in e.values])
        if isinstance(e, ast.UnaryOp) and isinstance(e.op, ast.Not):
            return '(.not %s)' % self.expr(e.operand)
        if isinstance(e, ast.Tuple):
            return '(.tuple %s)' % lst([self.expr(x) for x in e.elts])
        if isinstance(e, ast.List):
            return '(.list %s)' % lst([self.expr(x) for x in e.elts])
        if isinstance(e, ast.Dict) and not e.keys:
            return '(.const (.dict []))'
        if isinstance(e, ast.Dict):
            return '(.dict %s)' % lst(['(%s, %s)' % (q(k.value), self.expr(v)) for k, v in zip(e.keys, e.values)])
        if isinstance(e, ast.ListComp) and len(e.generators) == 1 and len(e.generators[0].ifs) <= 1:
            g = e.generators[0]
            c = self.expr(g.ifs[0]) if g.ifs else '(.const (.bool true))'
            return '(.comp %s %s %s %s)' % (self.expr(e.elt), q(g.target.id), self.expr(g.iter), c)
        if isinstance(e, ast.Call):
            f = e.func
            if isinstance(f, ast.Name) and f.id == 'isinstance':
                return '(.isinst %s %s)' % (self.expr(e.args[0]), lst(self.cls(e.args[1])))
            if isinstance(f, ast.Name) and f.id == 'getattr' and len(e.args) == 3:
                return '(.getattr %s)' % ' '.join(self.expr(x) for x in e.args)
            if isinstance(f, ast.Name) and f.id == '_' and len(e.args) == 1:
                return self.expr(e.args[0])
            if dotted(f) and dotted(f).endswith('.__dict__.items') and not e.args:
                return '(.attrItems %s)' % self.expr(f.value.value)
            if dotted(f) in ('datetime.now', 'datetime.today') and not e.args:
                return '(.glob "clock")'
            if dotted(f) == 'socket.getfqdn' and not e.args:
                return '(.glob "fqdn")'
            if dotted(f) == 'icalendar.Calendar.from_string' and len(e.args) == 1:
                return '(.prim .fromString [(.glob "parser"), %s] [])' % self.expr(e.args[0])
            r = self.resolve(f)
            if r and r.startswith('C:') and not e.args and len(e.keywords) == 1 and e.keywords[0].arg is None:
                return '(.newKw %s %s)' % (q(r[2:]), self.expr(e.keywords[0].value))
            if r:
                if r.startswith('P:'):
                    return '(.prim .%s %s)' % (r[2:], self.args(e))
                if r.startswith('C:'):
                    return '(.new %s %s)' % (q(r[2:]), self.args(e))
                return '(.call %s %s)' % (q(r[2:]), self.args(e))
            if isinstance(f, ast.Attribute):
                if f.attr == '__class__':
                    return '(.newLike %s %s)' % (self.expr(f.value), self.args(e))
                if f.attr in METHS:
                    return '(.meth %s .%s %s)' % (self.expr(f.value), METHS[f.attr], self.args(e))
                if f.attr not in MUTS and f.attr not in PROCS:
                    return '(.method %s %s %s)' % (self.expr(f.value), q(f.attr), self.args(e))
        raise Unsupported(ast.dump(e))

    def fold(self, op, parts):
        r = parts[-1]
        for p in reversed(parts[:-1]):
            r = '(.%s %s %s)' % (op, p, r)
        return r

    def target(self, t):
        if isinstance(t, ast.Name):
            return '(.name %s)' % q(t.id)
        if isinstance(t, ast.Tuple) and all(isinstance(x, ast.Name) for x in t.elts):
            return '(.names %s)' % lst([q(x.id) for x in t.elts])
        if isinstance(t, ast.Attribute) and isinstance(t.value, ast.Name) and t.value.id in self.locals:
            return '(.attr %s %s)' % (q(t.value.id), q(t.attr))
        if isinstance(t, ast.Subscript) and isinstance(t.value, ast.Name) and t.value.id in self.locals:
            return '(.item %s %s)' % (q(t.value.id), self.expr(t.slice))
        if (isinstance(t, ast.Subscript) and isinstance(t.value, ast.Attribute) and isinstance(t.value.value, ast.Name)
                and t.value.value.id in self.locals):
            return '(.attrItem %s %s %s)' % (q(t.value.value.id), q(t.value.attr), self.expr(t.slice))
        raise Unsupported(ast.dump(t))

    def mutation(self, target, e):
        """x.append(...) and the like, for a local variable x"""
        if isinstance(e, ast.Call) and isinstance(e.func, ast.Attribute) and e.func.attr in MUTS:
            x = e.func.value
            ks = [k.value for k in e.keywords]
            if isinstance(x, ast.Name) and x.id in self.locals and [k.arg for k in e.keywords] in ([], ['encode']):
                return '.mutate %s %s .%s %s' % (target, q(x.id), MUTS[e.func.attr], lst([self.expr(a) for a in e.args + ks]))
        if isinstance(e, ast.Call) and isinstance(e.func, ast.Attribute) and e.func.attr in PROCS and not e.keywords:
            x, a = e.func.value, 'none'
            if isinstance(x, ast.Attribute):
                x, a = x.value, '(some %s)' % q(x.attr)
            held = [y.id for y in [x] + e.args if isinstance(y, ast.Name) and y.id in self.held]
            if held and (a != 'none' or len(held) > 1 or x.id == 'self'):
                raise Unsupported(ast.dump(e))
            if held:
                return '.shared %s (.proc %s %s %s %s %s)' % (q(held[0]), target, q(x.id), a, q(e.func.attr),
                                                              lst([self.expr(y) for y in e.args]))
            if isinstance(x, ast.Name) and x.id in self.locals:
                return '.proc %s %s %s %s %s' % (target, q(x.id), a, q(e.func.attr), lst([self.expr(y) for y in e.args]))
        return None

    def stmt(self, s):
        """the Lean terms for a statement: a list of (line, text) or (line, text, blocks)"""
        n = s.lineno
        if isinstance(s, ast.Assign) and isinstance(s.targets[0], ast.Tuple) and len(s.targets) == 1 \
                and all(isinstance(x, ast.Subscript) for x in s.targets[0].elts):
            xs = ['_t%d' % i for i in range(len(s.targets[0].elts))]
            for x in xs:
                self.local(x)
            r = [(n, '.assign (.names %s) %s' % (lst([q(x) for x in xs]), self.expr(s.value)))]
            for x, t in zip(xs, s.targets[0].elts):
                r.append((n, '.assign %s (.var %s)' % (self.target(t), q(x))))
            return r
        if isinstance(s, ast.Delete) and len(s.targets) == 1:
            t = s.targets[0]
            if isinstance(t, ast.Subscript) and isinstance(t.value, ast.Attribute) and isinstance(t.value.value, ast.Name):
                return [(n, '.delItem %s %s %s' % (q(t.value.value.id), q(t.value.attr), self.expr(t.slice)))]
        if isinstance(s, ast.Assign):
            m = self.mutation('(some %s)' % self.target(s.targets[0]), s.value)
            r = [(n, m or '.assign %s %s' % (self.target(s.targets[0]), self.expr(s.value)))]
            for t in s.targets[1:]:
                r.append((n, '.assign %s %s' % (self.target(t), self.expr(ast.Name(s.targets[0].id, ast.Load())))))
            return r
        if isinstance(s, ast.AugAssign) and isinstance(s.target, ast.Name):
            x = ast.Name(s.target.id, ast.Load())
            return [(n, '.assign %s %s' % (self.target(s.target), self.expr(ast.BinOp(x, s.op, s.value))))]
        if isinstance(s, ast.Expr):
            e = s.value
            if isinstance(e, ast.Constant) and isinstance(e.value, str):
                return []
            if isinstance(e, ast.Yield):
                return [(n, '.yield %s' % self.expr(e.value))]
            if isinstance(e, ast.Call) and isinstance(e.func, ast.Attribute) and e.func.attr in PROCS and self.holds(e.func.value):
                self.local('_m')
                self.held.add('_m')
                call = ast.Call(ast.Attribute(ast.Name('_m', ast.Load()), e.func.attr, ast.Load()), e.args, e.keywords)
                return [(n, '.assign (.name "_m") %s' % self.expr(e.func.value)), (n, self.mutation('none', call))]
            m = self.mutation('none', e)
            if m:
                return [(n, m)]
            if isinstance(e, ast.Call) and isinstance(e.func, ast.Attribute) and e.func.attr == '__init__':
                return [(n, '.assign (.name "self") %s' % self.expr(e))]
            if isinstance(e, ast.Call) and isinstance(e.func, ast.Name) and e.func.id == 'notify':
                return [(n, '.yield %s' % self.expr(e.args[0]))]
            if isinstance(e, ast.Call) and isinstance(e.func, ast.Name) and e.func.id == 'setattr' \
                    and isinstance(e.args[0], ast.Name):
                return [(n, '.setattr %s %s %s' % (q(e.args[0].id), self.expr(e.args[1]), self.expr(e.args[2])))]
            if isinstance(e, ast.Call) and dotted(e.func) and dotted(e.func).startswith('self._logger.'):
                return [(n, '.expr (.tuple %s)' % lst([self.expr(a) for a in e.args]))]
            return [(n, '.expr %s' % self.expr(e))]
        if isinstance(s, ast.If):
            return [(n, '.ite %s' % self.expr(s.test), s.body, s.orelse)]
        if isinstance(s, ast.While) and not s.orelse:
            return [(n, '.while %s' % self.expr(s.test), s.body)]
        if isinstance(s, ast.For):
            return [(n, '.for %s %s' % (self.target(s.target), self.expr(s.iter)), s.body, s.orelse)]
        if isinstance(s, ast.Try) and len(s.handlers) == 1 and not s.orelse and not s.finalbody:
            h = s.handlers[0]
            return [(n, '.tryExcept', s.body, [h.type.id], h.body)]
        if isinstance(s, ast.Try) and len(s.handlers) == 2 and not s.orelse and not s.finalbody:
            h, k = s.handlers
            return [(n, '.tryExcept2', s.body, [h.type.id], h.body, [k.type.id], k.body)]
        if isinstance(s, ast.Return) and isinstance(s.value, ast.Call) and isinstance(s.value.func, ast.Attribute) \
                and s.value.func.attr in PROCS and self.holds(s.value.func.value):
            e = s.value
            self.local('_m')
            self.local('_r')
            self.held.add('_m')
            call = ast.Call(ast.Attribute(ast.Name('_m', ast.Load()), e.func.attr, ast.Load()), e.args + self.positional(e), [])
            return [(n, '.assign (.name "_m") %s' % self.expr(e.func.value)),
                    (n, self.mutation('(some (.name "_r"))', call)), (n, '.ret (.var "_r")')]
        if isinstance(s, ast.Return) and s.value and self.mutation('none', s.value):
            self.local('_r')
            return [(n, self.mutation('(some (.name "_r"))', s.value)), (n, '.ret (.var "_r")')]
        if isinstance(s, ast.Return):
            return [(n, '.ret %s' % (self.expr(s.value) if s.value else '(.const .none)'))]
        if isinstance(s, ast.Raise):
            e = s.exc.func if isinstance(s.exc, ast.Call) else s.exc
            if e.id == 'NotImplementedError':
                return [(n, '.abort')]
            if e.id in ERRORS:
                return [(n, '.raise .%s' % e.id)]
        if isinstance(s, ast.Assert):
            return [(n, '.assert %s' % self.expr(s.test))]
        if isinstance(s, ast.Pass):
            return [(n, '.pass')]
        if isinstance(s, ast.Break):
            return [(n, '.break')]
        if isinstance(s, ast.Continue):
            return [(n, '.continue')]
        raise Unsupported(ast.dump(s))

    def block(self, stmts, indent):
        items = []
        for s in stmts:
            for r in self.stmt(s):
                pre = '%s-- %d: %s\n%s' % (indent, r[0], self.mod.lines[r[0] - 1].strip(), indent)
                text = r[1]
                for k, b in enumerate(r[2:]):
                    if k == 0 and isinstance(s, (ast.For, ast.While)):
                        self.loops += 1
                        name = '%s_loop%d' % (self.ident, self.loops)
                        self.defs.append((name, None))
                        i = len(self.defs) - 1
                        self.defs[i] = (name, s, self.block(b, '  '))
                        text += ' ' + name
                    elif b and isinstance(b[0], str):
                        text += ' ' + lst(['.' + x for x in b])
                    elif b:
                        text += ' [\n' + self.block(b, indent + '  ') + ']'
                    else:
                        text += ' []'
                items.append(pre + text)
        return ',\n'.join(items)

    def lean(self, ident):
        self.ident, self.loops, self.defs = ident, 0, []
        a = self.node.args
        if a.vararg or a.kwonlyargs:
            raise Unsupported(self.name)
        defaults = [None] * (len(a.args) - len(a.defaults)) + a.defaults
        ps = ['(%s, %s)' % (q(x), 'some ' + self.value(d) if d is not None else 'none') for x, d in zip(self.params, defaults)]
        if a.kwarg:
            ps.append('(%s, some (.dict []))' % q(a.kwarg.arg))
        kind = '.gen' if self.gen else '.init' if self.name.endswith('.__init__') else '.proc' if self.proc else '.fn'
        body = self.block(self.node.body, '    ')
        if self.tuple:
            n = self.node.lineno
            first = '    -- %d: %s\n    .assign (.names %s) (.var "_t")' % (n, self.mod.lines[n - 1].strip(), lst([q(x) for x in self.tuple]))
            body = first + ',\n' + body
        rest = [x for x in self.locals if x not in self.params]
        loops = ''.join('/-- The loop of `%s` at line %d. -/\ndef %s : List Stmt := [\n%s]\n\n' % (self.name, d[1].lineno, d[0], d[2])
                        for d in reversed(self.defs))
        return loops + ('/-- `%s`, %s.py lines %d-%d -/\ndef %s : FunDef where\n  kind := %s\n  params := %s\n  locals := %s\n  body := [\n%s]\n'
                % (self.name, self.mod.name, self.node.lineno, self.node.end_lineno, ident, kind, lst(ps), lst([q(x) for x in rest]), body))


def signature(node):
    a = node.args
    if a.vararg or a.kwonlyargs:
        raise Unsupported(node.name)
    names = [x.arg for x in a.args]
    k = len(names) - len(a.defaults)
    return '(%s, ⟨%s, %s, %s⟩)' % (q(node.name), lst([q(x) for x in names[:k]]), lst([q(x) for x in names[k:]]),
                                   'true' if a.kwarg else 'false')


def signatures(src, out):
    """the classes and interfaces: name, bases, what is declared, signatures of the methods"""
    mods = {}
    for name in ['cal', 'recurrent', 'events', 'interfaces']:
        with open('%s/%s.py' % (src, name), encoding='iso-8859-15') as f:
            mods[name] = Module(name, f.read())
    known = set(c for m in mods.values() for c in m.classes)
    def rows(names, declared):
        rs = []
        for name in names:
            for c in mods[name].tree.body:
                if isinstance(c, ast.ClassDef) and known.intersection([c.name]):
                    bases = [q(b.id) for b in c.bases if b.id in known]
                    methods = [signature(f) for f in c.body if isinstance(f, ast.FunctionDef)]
                    rs.append('  -- %s.py line %d\n  (%s, %s, %s, [%s])' % (name, c.lineno, q(c.name), lst(bases), lst(declared(c)),
                                                                 ',\n    '.join(methods)))
        return ',\n'.join(rs)
    def implemented(c):
        return [q(a.id) for n in c.body if isinstance(n, ast.Expr) and isinstance(n.value, ast.Call)
                and getattr(n.value.func, 'id', '') == 'implements' for a in n.value.args]
    def attributes(c):
        return [q(n.targets[0].id) for n in c.body if isinstance(n, ast.Assign)]
    text = ['import Verif.Model.Interfaces',
            '/- The classes and interfaces of /repo/src/calcore, written by tools/translate.py: do not edit. -/',
            'namespace CalCore.Lang.Source', '',
            '/-- The classes: name, base classes, the interfaces in `implements`, and the methods. -/',
            'def classes : List (String × List String × List String × List (String × Sig)) := [',
            rows(['cal', 'recurrent', 'events'], implemented) + ']', '',
            '/-- The interfaces: name, bases, attributes, and the methods. -/',
            'def interfaces : List (String × List String × List String × List (String × Sig)) := [',
            rows(['interfaces'], attributes) + ']', '',
            'end CalCore.Lang.Source']
    with open('%s/Signatures.lean' % out, 'w') as f:
        f.write('\n'.join(text) + '\n')


def main(src, out):
    signatures(src, out)
    world = {}
    for name in WANTED:
        with open('%s/%s.py' % (src, name), encoding='iso-8859-15') as f:
            world[name] = Module(name, f.read())
    table = []
    for name, wanted in WANTED.items():
        mod = world[name]
        text = ['import Verif.Model.Lang',
                '/- Syntax trees of functions of /repo/src/calcore/%s.py, written by tools/translate.py: do not edit. -/' % name,
                'namespace CalCore.Lang.Source', '']
        for w in wanted:
            ident = w.replace('.', '_').replace('___init__', '_init').replace('__', '_')
            while ident in [i for _, i in table]:
                ident += '_'
            try:
                text.append(Fun(mod, w, mod.funs[w], world).lean(ident))
            except Unsupported as e:
                sys.exit('%s.%s: %s' % (name, w, e))
            table.append((w, ident))
        text.append('end CalCore.Lang.Source')
        with open('%s/%s.lean' % (out, name.capitalize()), 'w') as f:
            f.write('\n'.join(text) + '\n')
    text = ['import Verif.Source.%s' % n.capitalize() for n in WANTED]
    text += ['/- The program made of the syntax trees, written by tools/translate.py: do not edit. -/',
             'namespace CalCore.Lang.Source', '',
             '/-- The functions by name. -/', 'def funs : List (String × FunDef) := [']
    text.append(',\n'.join('  (%s, %s)' % (q(w), i) for w, i in table) + ']')
    text += ['', '/-- The base classes. -/', 'def bases : List (String × String) := [']
    text.append(',\n'.join('  (%s, %s)' % (q(c), q(b)) for m in world.values() for c, b in m.bases) + ']')
    gs, cs = [], []
    for m in world.values():
        f = Fun(m, 'util', world['util'].funs['removeOverlaps'], world)
        for x, v in m.globals:
            if (x, f.value(v)) not in gs:
                gs.append((x, f.value(v)))
        cs += [(x, f.value(v)) for x, v in m.consts]
    if len(set(x for x, _ in gs)) != len(gs):
        sys.exit('two global variables with one name')
    text += ['', '/-- The global variables. -/', 'def globals : List (String × Val) := [']
    text.append(',\n'.join('  (%s, %s)' % (q(x), v) for x, v in gs) + ']')
    text += ['', '/-- The attributes of classes. -/', 'def consts : List (String × Val) := [']
    text.append(',\n'.join('  (%s, %s)' % (q(x), v) for x, v in cs) + ']')
    text += ['', '/-- The functions that are not translated. -/', 'def others : List String := [']
    text.append(',\n'.join('  %s' % q(f) for m in world.values() for f in m.funs if f not in WANTED[m.name]) + ']')
    text += ['', '/-- The values of the global variables. -/', 'class Globals where', '  vars : List (String × Val)', '',
             '/-- Those of the text, if nothing else is said.  The clock and the name of the host are not among them. -/', 'instance : Globals := ⟨globals⟩', '',
             '/-- Those of the text, the clock and the name of the host, at a time on a host. -/',
             '@[reducible] def world (now : Int) (host : String) : Globals := ⟨("clock", .datetime now) :: ("fqdn", .str host) :: globals⟩', '',
             '/-- Those of the text, and what the parser does with texts (see `parseWith`). -/',
             '@[reducible] def reading (parser : Val) : Globals := ⟨("parser", parser) :: globals⟩', '',
             '/-- The program. -/', 'def prog [G : Globals] : Prog := ⟨funs, bases, G.vars, consts, others⟩', '', 'end CalCore.Lang.Source']
    with open('%s/Prog.lean' % out, 'w') as f:
        f.write('\n'.join(text) + '\n')


main(*sys.argv[1:])

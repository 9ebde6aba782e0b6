import Verif.Mini.Ast

/-!
# The text of the hand-written files

Each definition is the text of a file of the repository, line by line, unchanged.
-/

namespace Verif.Mini

/-- /repo/miniquery/tree.go:1-274 -/
def treeTextLines : List Str := [
c! r#"//go:generate go tool -modfile=../go.tool.mod peg -switch miniquery.peg"#,
c! r#"package miniquery"#,
c! r#""#,
c! r#"import ("#,
c! r#"	"fmt""#,
c! r#"	"regexp""#,
c! r#"	"strconv""#,
c! r#"	"strings""#,
c! r#")"#,
c! r#""#,
c! r#"// Tree build time syntax tree"#,
c! r#"//"#,
c! r#"// reference"#,
c! r#"// https://www.postgresql.org/docs/current/functions-comparison.html"#,
c! r#"type Tree struct {"#,
c! r#"	Stack  []*Node"#,
c! r#"	Errors []error"#,
c! r#"	marks  []int"#,
c! r#"}"#,
c! r#""#,
c! r#"var ("#,
c! r#"	regSpace  = regexp.MustCompile(`\s+`)"#,
c! r#"	normalize = map[string]string{"#,
c! r#"		">=": "gte","#,
c! r#"		">":  "gt","#,
c! r#"		"==": "eq","#,
c! r#"		"=":  "eq","#,
c! r#"		"!=": "neq","#,
c! r#"		"<>": "neq","#,
c! r#"		"<":  "lt","#,
c! r#"		"<=": "lte","#,
c! r#"		":":  "eq","#,
c! r#"		//"#,
c! r#"		"&&": "and","#,
c! r#"		"||": "or","#,
c! r#"		",":  "and","#,
c! r#""#,
c! r#"		// 非标准 sql 语法"#,
c! r#"		"isnull":  "is null","#,
c! r#"		"notnull": "is not null","#,
c! r#"	}"#,
c! r#")"#,
c! r#""#,
c! r#"func NormalizeOperation(s string) string {"#,
c! r#"	s = strings.TrimSpace(s)"#,
c! r#"	s = strings.ToLower(s)"#,
c! r#"	s = regSpace.ReplaceAllString(s, " ")"#,
c! r#"	if v, ok := normalize[s]; ok {"#,
c! r#"		return v"#,
c! r#"	}"#,
c! r#"	return s"#,
c! r#"}"#,
c! r#""#,
c! r#"func (t *Tree) Push(node *Node) {"#,
c! r#"	t.Stack = append(t.Stack, node)"#,
c! r#"}"#,
c! r#""#,
c! r#"func (t *Tree) Pop() *Node {"#,
c! r#"	last := len(t.Stack) - 1"#,
c! r#"	if last < 0 {"#,
c! r#"		return nil"#,
c! r#"	}"#,
c! r#"	v := t.Stack[last]"#,
c! r#"	t.Stack = t.Stack[:last]"#,
c! r#"	return v"#,
c! r#"}"#,
c! r#""#,
c! r#"func (t *Tree) PopIdentifierReference() {"#,
c! r#"	nodes := t.popMarked()"#,
c! r#"	names := make([]string, 0, len(nodes))"#,
c! r#"	for _, node := range nodes {"#,
c! r#"		names = append(names, node.Name)"#,
c! r#"	}"#,
c! r#"	t.Push(&Node{"#,
c! r#"		Type:  ReferenceNodeType,"#,
c! r#"		Names: names,"#,
c! r#"	})"#,
c! r#"}"#,
c! r#""#,
c! r#"func (t *Tree) PopFunction() {"#,
c! r#"	a := t.Pop()"#,
c! r#"	n := t.Pop()"#,
c! r#"	if a == nil || n == nil {"#,
c! r#"		t.AddError(fmt.Errorf("invalid function exp %q %q", n, a))"#,
c! r#"		return"#,
c! r#"	}"#,
c! r#"	if n.Type == IdentifierNodeType && a.Type == ValueNodeType && a.ValueType == ArrayValueType {"#,
c! r#"		t.Push(&Node{"#,
c! r#"			Type:   FunctionExpressionType,"#,
c! r#"			Name:   n.Name,"#,
c! r#"			Params: a.Array,"#,
c! r#"		})"#,
c! r#"	} else {"#,
c! r#"		t.AddError(fmt.Errorf("invalid function exp %q %q", n.Type, a.Type))"#,
c! r#"	}"#,
c! r#"}"#,
c! r#""#,
c! r#"func (t *Tree) PopBetween() {"#,
c! r#"	up := t.Pop()"#,
c! r#"	down := t.Pop()"#,
c! r#"	op := t.Pop()"#,
c! r#"	left := t.Pop()"#,
c! r#"	t.Push(&Node{"#,
c! r#"		Type: BetweenExpressionType,"#,
c! r#"		Left: left,"#,
c! r#"		Op:   op,"#,
c! r#"		Params: []*Node{"#,
c! r#"			down,"#,
c! r#"			up,"#,
c! r#"		},"#,
c! r#"	})"#,
c! r#"}"#,
c! r#""#,
c! r#"func (t *Tree) PopPredicate() {"#,
c! r#"	op := t.Pop()"#,
c! r#"	left := t.Pop()"#,
c! r#""#,
c! r#"	t.Push(&Node{"#,
c! r#"		Type: PredicatesExpressionType,"#,
c! r#"		Left: left,"#,
c! r#"		Op:   op,"#,
c! r#"	})"#,
c! r#"}"#,
c! r#""#,
c! r#"func (t *Tree) PopLogic() {"#,
c! r#"	right := t.Pop()"#,
c! r#"	op := t.Pop()"#,
c! r#"	left := t.Pop()"#,
c! r#"	t.Push(&Node{"#,
c! r#"		Type:  LogicExpressionType,"#,
c! r#"		Left:  left,"#,
c! r#"		Op:    op,"#,
c! r#"		Right: right,"#,
c! r#"	})"#,
c! r#"}"#,
c! r#""#,
c! r#"func (t *Tree) PopCompare() {"#,
c! r#"	right := t.Pop()"#,
c! r#"	op := t.Pop()"#,
c! r#"	left := t.Pop()"#,
c! r#""#,
c! r#"	t.Push(&Node{"#,
c! r#"		Type:  CompareExpressionType,"#,
c! r#"		Left:  left,"#,
c! r#"		Op:    op,"#,
c! r#"		Right: right,"#,
c! r#"	})"#,
c! r#"}"#,
c! r#""#,
c! r#"func (t *Tree) PopParentheses() {"#,
c! r#"	t.Push(&Node{"#,
c! r#"		Type:       ParenthesesExpressionType,"#,
c! r#"		Expression: t.Pop(),"#,
c! r#"	})"#,
c! r#"}"#,
c! r#""#,
c! r#"func (t *Tree) PopMark() int {"#,
c! r#"	v := t.marks[len(t.marks)-1]"#,
c! r#"	t.marks = t.marks[:len(t.marks)-1]"#,
c! r#"	return v"#,
c! r#"}"#,
c! r#""#,
c! r#"func (t *Tree) AddMark() {"#,
c! r#"	t.marks = append(t.marks, len(t.Stack))"#,
c! r#"}"#,
c! r#""#,
c! r#"func (t *Tree) popMarked() []*Node {"#,
c! r#"	mark := t.PopMark()"#,
c! r#"	elements := make([]*Node, len(t.Stack)-mark)"#,
c! r#"	copy(elements, t.Stack[mark:len(t.Stack)])"#,
c! r#"	t.Stack = t.Stack[0:mark]"#,
c! r#"	return elements"#,
c! r#"}"#,
c! r#""#,
c! r#"func (t *Tree) PopArray() {"#,
c! r#"	t.Push(&Node{"#,
c! r#"		Type:      ValueNodeType,"#,
c! r#"		ValueType: ArrayValueType,"#,
c! r#"		Array:     t.popMarked(),"#,
c! r#"	})"#,
c! r#"}"#,
c! r#""#,
c! r#"func (t *Tree) AddOperation(s string) {"#,
c! r#"	t.Push(&Node{"#,
c! r#"		Type:      OperationNodeType,"#,
c! r#"		Operation: NormalizeOperation(s),"#,
c! r#"	})"#,
c! r#"}"#,
c! r#""#,
c! r#"func (t *Tree) AddCompare(s string) {"#,
c! r#"	t.Push(&Node{"#,
c! r#"		Type:      OperationNodeType,"#,
c! r#"		Operation: NormalizeOperation(s),"#,
c! r#"	})"#,
c! r#"}"#,
c! r#""#,
c! r#"func (t *Tree) AddLogic(s string) {"#,
c! r#"	t.Push(&Node{"#,
c! r#"		Type:      OperationNodeType,"#,
c! r#"		Operation: NormalizeOperation(s),"#,
c! r#"	})"#,
c! r#"}"#,
c! r#""#,
c! r#"func (t *Tree) PopNot() {"#,
c! r#"	t.Push(&Node{"#,
c! r#"		Type:       NotExpressionType,"#,
c! r#"		Expression: t.Pop(),"#,
c! r#"	})"#,
c! r#"}"#,
c! r#""#,
c! r#"func (t *Tree) AddMatch(s string) {"#,
c! r#"	t.Push(&Node{"#,
c! r#"		Type:      OperationNodeType,"#,
c! r#"		Operation: NormalizeOperation(s),"#,
c! r#"	})"#,
c! r#"}"#,
c! r#""#,
c! r#"func (t *Tree) AddName(s string) {"#,
c! r#"	t.Push(&Node{"#,
c! r#"		Type: IdentifierNodeType,"#,
c! r#"		Name: s,"#,
c! r#"	})"#,
c! r#"}"#,
c! r#""#,
c! r#"func (t *Tree) AddError(err error) {"#,
c! r#"	if err != nil {"#,
c! r#"		t.Errors = append(t.Errors, err)"#,
c! r#"	}"#,
c! r#"}"#,
c! r#""#,
c! r#"func (t *Tree) AddString(s string) {"#,
c! r#"	t.Stack = append(t.Stack, &Node{"#,
c! r#"		Type:      ValueNodeType,"#,
c! r#"		ValueType: StringValueType,"#,
c! r#"		Str:       s,"#,
c! r#"	})"#,
c! r#"}"#,
c! r#""#,
c! r#"func (t *Tree) AddFloat(s string) {"#,
c! r#"	v, err := strconv.ParseFloat(s, 64)"#,
c! r#"	t.AddError(err)"#,
c! r#"	t.Stack = append(t.Stack, &Node{"#,
c! r#"		Type:      ValueNodeType,"#,
c! r#"		ValueType: FloatValueType,"#,
c! r#"		Float:     v,"#,
c! r#"	})"#,
c! r#"}"#,
c! r#""#,
c! r#"func (t *Tree) AddNull() {"#,
c! r#"	t.Stack = append(t.Stack, &Node{"#,
c! r#"		Type:      ValueNodeType,"#,
c! r#"		ValueType: NullValueType,"#,
c! r#"	})"#,
c! r#"}"#,
c! r#""#,
c! r#"func (t *Tree) AddBoolean(s string) {"#,
c! r#"	i, err := strconv.ParseBool(s)"#,
c! r#"	t.AddError(err)"#,
c! r#"	t.Stack = append(t.Stack, &Node{"#,
c! r#"		Type:      ValueNodeType,"#,
c! r#"		ValueType: BooleanValueType,"#,
c! r#"		Bool:      i,"#,
c! r#"	})"#,
c! r#"}"#,
c! r#""#,
c! r#"func (t *Tree) AddInteger(s string) {"#,
c! r#"	i, err := strconv.Atoi(s)"#,
c! r#"	t.AddError(err)"#,
c! r#"	t.Stack = append(t.Stack, &Node{"#,
c! r#"		Type:      ValueNodeType,"#,
c! r#"		ValueType: IntValueType,"#,
c! r#"		Int:       i,"#,
c! r#"	})"#,
c! r#"}"#]

/-- The text of /repo/miniquery/tree.go -/
def treeText : Str := treeTextLines.flatMap (· ++ ['\n'])

/-- /repo/miniquery/parse.go:1-16 -/
def parseTextLines : List Str := [
c! r#"package miniquery"#,
c! r#""#,
c! r#"func Parse(s string) (*Node, error) {"#,
c! r#"	p := &MiniQueryPeg{Tree: &Tree{}, Buffer: s}"#,
c! r#"	if err := p.Init(); err != nil {"#,
c! r#"		return nil, err"#,
c! r#"	}"#,
c! r#"	if err := p.Parse(); err != nil {"#,
c! r#"		return nil, err"#,
c! r#"	}"#,
c! r#"	p.Execute()"#,
c! r#"	if len(p.Errors) != 0 {"#,
c! r#"		return nil, p.Errors[0]"#,
c! r#"	}"#,
c! r#"	return p.Pop(), nil"#,
c! r#"}"#]

/-- The text of /repo/miniquery/parse.go -/
def parseText : Str := parseTextLines.flatMap (· ++ ['\n'])

/-- /repo/miniquery/join.go:1-25 -/
def joinTextLines : List Str := [
c! r#"package miniquery"#,
c! r#""#,
c! r#"import "strings""#,
c! r#""#,
c! r#"func Join(s []string) string {"#,
c! r#"	switch len(s) {"#,
c! r#"	case 0:"#,
c! r#"		return """#,
c! r#"	case 1:"#,
c! r#"		return s[0]"#,
c! r#"	}"#,
c! r#"	sb := strings.Builder{}"#,
c! r#"	for _, v := range s {"#,
c! r#"		if len(strings.TrimSpace(v)) == 0 {"#,
c! r#"			continue"#,
c! r#"		}"#,
c! r#"		if sb.Len() != 0 {"#,
c! r#"			sb.WriteString(" and ")"#,
c! r#"		}"#,
c! r#"		sb.WriteString("(")"#,
c! r#"		sb.WriteString(v)"#,
c! r#"		sb.WriteString(")")"#,
c! r#"	}"#,
c! r#"	return sb.String()"#,
c! r#"}"#]

/-- The text of /repo/miniquery/join.go -/
def joinText : Str := joinTextLines.flatMap (· ++ ['\n'])

/-- /repo/miniquery/node.go:1-266 -/
def nodeTextLines : List Str := [
c! r#"package miniquery"#,
c! r#""#,
c! r#"import ("#,
c! r#"	"fmt""#,
c! r#"	"strings""#,
c! r#")"#,
c! r#""#,
c! r#"type ("#,
c! r#"	NodeType  string"#,
c! r#"	ValueType string"#,
c! r#")"#,
c! r#""#,
c! r#"const ("#,
c! r#"	ValueNodeType             NodeType = "value"       // Node.Value"#,
c! r#"	OperationNodeType         NodeType = "operation"   // Node.Operation"#,
c! r#"	IdentifierNodeType        NodeType = "identifier"  // Node.Name"#,
c! r#"	ReferenceNodeType         NodeType = "reference"   // Node.Names"#,
c! r#"	PredicatesExpressionType  NodeType = "predicates"  // field is null - Node.Left, Node.Op"#,
c! r#"	CompareExpressionType     NodeType = "compare"     // Node.Left, Node.Op, Node.Right"#,
c! r#"	LogicExpressionType       NodeType = "logic"       // Node.Left, Node.Op, Node.Right"#,
c! r#"	ParenthesesExpressionType NodeType = "parentheses" // Node.Expression"#,
c! r#"	NotExpressionType         NodeType = "not"         // Node.Expression"#,
c! r#"	BetweenExpressionType     NodeType = "between"     // Node.Left, Node.Op, Node.Params"#,
c! r#"	FunctionExpressionType    NodeType = "function"    // Node.Name, Node.Params"#,
c! r#")"#,
c! r#""#,
c! r#"const ("#,
c! r#"	IntValueType     ValueType = "int""#,
c! r#"	FloatValueType   ValueType = "float""#,
c! r#"	BooleanValueType ValueType = "bool""#,
c! r#"	StringValueType  ValueType = "string""#,
c! r#"	NullValueType    ValueType = "null""#,
c! r#"	ArrayValueType   ValueType = "array""#,
c! r#")"#,
c! r#""#,
c! r#"type Node struct {"#,
c! r#"	Type      NodeType"#,
c! r#"	ValueType ValueType"#,
c! r#"	Int       int"#,
c! r#"	Bool      bool"#,
c! r#"	Str       string"#,
c! r#"	Float     float64"#,
c! r#"	Array     []*Node"#,
c! r#""#,
c! r#"	Operation OpType"#,
c! r#"	Name      string"#,
c! r#"	Names     []string // Reference"#,
c! r#""#,
c! r#"	Expression *Node"#,
c! r#""#,
c! r#"	Left   *Node"#,
c! r#"	Op     *Node // Operation"#,
c! r#"	Right  *Node"#,
c! r#"	Params []*Node"#,
c! r#"}"#,
c! r#""#,
c! r#"func (n Node) Value() interface{} {"#,
c! r#"	switch n.ValueType {"#,
c! r#"	case IntValueType:"#,
c! r#"		return n.Int"#,
c! r#"	case StringValueType:"#,
c! r#"		return n.Str"#,
c! r#"	case FloatValueType:"#,
c! r#"		return n.Float"#,
c! r#"	case BooleanValueType:"#,
c! r#"		return n.Bool"#,
c! r#"	case NullValueType:"#,
c! r#"		return nil"#,
c! r#"	case ArrayValueType:"#,
c! r#"		var s []interface{}"#,
c! r#"		for _, v := range n.Array {"#,
c! r#"			s = append(s, v.Value())"#,
c! r#"		}"#,
c! r#"		return s"#,
c! r#"	}"#,
c! r#"	return "<unknown value>""#,
c! r#"}"#,
c! r#""#,
c! r#"func (n Node) IsValue() bool {"#,
c! r#"	return n.ValueType != """#,
c! r#"}"#,
c! r#""#,
c! r#"func (n Node) IsExpression() bool {"#,
c! r#"	switch n.Type {"#,
c! r#"	case IdentifierNodeType, ValueNodeType, OperationNodeType, ReferenceNodeType:"#,
c! r#"		return false"#,
c! r#"	}"#,
c! r#"	return true"#,
c! r#"}"#,
c! r#""#,
c! r#"func (n Node) String() string {"#,
c! r#"	buf := &strings.Builder{}"#,
c! r#"	buf.WriteString(string(n.Type))"#,
c! r#"	buf.WriteString("(")"#,
c! r#""#,
c! r#"	switch n.Type {"#,
c! r#"	case BetweenExpressionType:"#,
c! r#"		buf.WriteString(n.Params[0].String())"#,
c! r#"		buf.WriteString(",")"#,
c! r#"		buf.WriteString(n.Params[1].String())"#,
c! r#"	case PredicatesExpressionType:"#,
c! r#"		buf.WriteString(n.Operation)"#,
c! r#"	case LogicExpressionType:"#,
c! r#"		buf.WriteString(n.Op.String())"#,
c! r#"		buf.WriteString(",")"#,
c! r#"		buf.WriteString(n.Left.String())"#,
c! r#"		buf.WriteString(",")"#,
c! r#"		buf.WriteString(n.Right.String())"#,
c! r#"	case CompareExpressionType:"#,
c! r#"		buf.WriteString(n.Left.String())"#,
c! r#"		buf.WriteString(",")"#,
c! r#"		buf.WriteString(n.Op.String())"#,
c! r#"		buf.WriteString(",")"#,
c! r#"		buf.WriteString(n.Right.String())"#,
c! r#"	case ParenthesesExpressionType:"#,
c! r#"		fallthrough"#,
c! r#"	case NotExpressionType:"#,
c! r#"		buf.WriteString(n.Expression.String())"#,
c! r#"	case ValueNodeType:"#,
c! r#"		_, _ = fmt.Fprint(buf, n.Value())"#,
c! r#"	case OperationNodeType:"#,
c! r#"		buf.WriteString(n.Operation)"#,
c! r#"	case IdentifierNodeType:"#,
c! r#"		buf.WriteString(n.Name)"#,
c! r#"	case ReferenceNodeType:"#,
c! r#"		buf.WriteString(strings.Join(n.Names, "."))"#,
c! r#"	case FunctionExpressionType:"#,
c! r#"		buf.WriteString(n.Name)"#,
c! r#"		for _, v := range n.Params {"#,
c! r#"			buf.WriteString(",")"#,
c! r#"			buf.WriteString(v.String())"#,
c! r#"		}"#,
c! r#"	default:"#,
c! r#"		buf.WriteString("unknown")"#,
c! r#"	}"#,
c! r#"	buf.WriteString(")")"#,
c! r#"	return buf.String()"#,
c! r#"}"#,
c! r#""#,
c! r#"func Build(n *Node) string {"#,
c! r#"	buf := &strings.Builder{}"#,
c! r#"	var visit func(node *Node)"#,
c! r#"	visit = func(node *Node) {"#,
c! r#"		switch node.Type {"#,
c! r#"		case NotExpressionType:"#,
c! r#"			buf.WriteString("not ")"#,
c! r#"			visit(node.Expression)"#,
c! r#"		case BetweenExpressionType:"#,
c! r#"			visit(node.Left)"#,
c! r#"			buf.WriteString(" ")"#,
c! r#"			visit(node.Op)"#,
c! r#"			buf.WriteString(" ")"#,
c! r#"			visit(node.Params[0])"#,
c! r#"			buf.WriteString(" and ")"#,
c! r#"			visit(node.Params[1])"#,
c! r#"		case PredicatesExpressionType:"#,
c! r#"			fallthrough"#,
c! r#"		case LogicExpressionType:"#,
c! r#"			fallthrough"#,
c! r#"		case CompareExpressionType:"#,
c! r#"			visit(node.Left)"#,
c! r#"			buf.WriteRune(' ')"#,
c! r#"			visit(node.Op)"#,
c! r#"			if node.Right != nil {"#,
c! r#"				buf.WriteRune(' ')"#,
c! r#"				visit(node.Right)"#,
c! r#"			}"#,
c! r#"		case ParenthesesExpressionType:"#,
c! r#"			buf.WriteRune('(')"#,
c! r#"			visit(node.Expression)"#,
c! r#"			buf.WriteRune(')')"#,
c! r#"		case OperationNodeType:"#,
c! r#"			buf.WriteString(printPretty(node.Operation))"#,
c! r#"		case IdentifierNodeType:"#,
c! r#"			buf.WriteString(node.Name)"#,
c! r#"		case ReferenceNodeType:"#,
c! r#"			buf.WriteString(strings.Join(node.Names, "."))"#,
c! r#"		case FunctionExpressionType:"#,
c! r#"			buf.WriteString(n.Name)"#,
c! r#"			buf.WriteRune('(')"#,
c! r#"			n := len(node.Params)"#,
c! r#"			for i, v := range node.Params {"#,
c! r#"				visit(v)"#,
c! r#"				if i != n-1 {"#,
c! r#"					buf.WriteRune(',')"#,
c! r#"				}"#,
c! r#"			}"#,
c! r#"			buf.WriteRune(')')"#,
c! r#"		case ValueNodeType:"#,
c! r#"			buildValue(buf, node, visit)"#,
c! r#"		default:"#,
c! r#"			buf.WriteString("<unknown type>")"#,
c! r#"		}"#,
c! r#"	}"#,
c! r#"	visit(n)"#,
c! r#"	return buf.String()"#,
c! r#"}"#,
c! r#""#,
c! r#"func buildValue(buf *strings.Builder, node *Node, visit func(node *Node)) {"#,
c! r#"	switch node.ValueType {"#,
c! r#"	case ArrayValueType:"#,
c! r#"		buf.WriteRune('[')"#,
c! r#"		n := len(node.Array)"#,
c! r#"		for i, v := range node.Array {"#,
c! r#"			visit(v)"#,
c! r#"			if i != n-1 {"#,
c! r#"				buf.WriteRune(',')"#,
c! r#"			}"#,
c! r#"		}"#,
c! r#"		buf.WriteRune(']')"#,
c! r#"	case StringValueType:"#,
c! r#"		_, _ = fmt.Fprintf(buf, "%q", node.Str)"#,
c! r#"	default:"#,
c! r#"		value := node.Value()"#,
c! r#"		if value == nil {"#,
c! r#"			buf.WriteString("null")"#,
c! r#"		} else {"#,
c! r#"			_, _ = fmt.Fprint(buf, value)"#,
c! r#"		}"#,
c! r#"	}"#,
c! r#"}"#,
c! r#""#,
c! r#"type OpType = string"#,
c! r#""#,
c! r#"const ("#,
c! r#"	OpGTE        OpType = "gte""#,
c! r#"	OpGT         OpType = "gt""#,
c! r#"	OpEQ         OpType = "eq""#,
c! r#"	OpNEQ        OpType = "neq""#,
c! r#"	OpLT         OpType = "lt""#,
c! r#"	OpLTE        OpType = "lte""#,
c! r#"	OpAnd        OpType = "and""#,
c! r#"	OpOr         OpType = "or""#,
c! r#"	OpBetween    OpType = "between""#,
c! r#"	OpLike       OpType = "like""#,
c! r#"	OpNotLike    OpType = "not like""#,
c! r#"	OpNotBetween OpType = "not between""#,
c! r#"	OpIsNull     OpType = "is null""#,
c! r#"	OpIsNotNull  OpType = "is not null""#,
c! r#"	OpNot        OpType = "not""#,
c! r#"	OpIn         OpType = "in""#,
c! r#"	OpNotIn      OpType = "not in""#,
c! r#"	// IS UNKNOWN, TRUE, FALSE, DISTINCT FROM"#,
c! r#"	// BETWEEN SYMMETRIC"#,
c! r#")"#,
c! r#""#,
c! r#"var pretties = map[string]string{"#,
c! r#"	"gte":       ">=","#,
c! r#"	"gt":        ">","#,
c! r#"	"eq":        "==","#,
c! r#"	"neq":       "!=","#,
c! r#"	"lt":        "<","#,
c! r#"	"lte":       "<=","#,
c! r#"	"and":       "&&","#,
c! r#"	"or":        "||","#,
c! r#"	"isnull":    "is null","#,
c! r#"	"isnotnull": "is not null","#,
c! r#"	"notin":     "not in","#,
c! r#"}"#,
c! r#""#,
c! r#"func printPretty(s string) string {"#,
c! r#"	if v, ok := pretties[s]; ok {"#,
c! r#"		return v"#,
c! r#"	}"#,
c! r#"	return s"#,
c! r#"}"#]

/-- The text of /repo/miniquery/node.go -/
def nodeText : Str := nodeTextLines.flatMap (· ++ ['\n'])

/-- /repo/miniquery/visitor.go:1-135 -/
def visitorTextLines : List Str := [
c! r#"package miniquery"#,
c! r#""#,
c! r#"import ("#,
c! r#"	"context""#,
c! r#""#,
c! r#"	"github.com/pkg/errors""#,
c! r#")"#,
c! r#""#,
c! r#"type ("#,
c! r#"	VisitFunc = func(ctx context.Context, node *Node) error"#,
c! r#"	Visitor   struct {"#,
c! r#"		BinaryExpression      VisitFunc"#,
c! r#"		LogicExpression       VisitFunc"#,
c! r#"		BetweenExpression     VisitFunc"#,
c! r#"		FunctionExpression    VisitFunc"#,
c! r#"		PredicatesExpression  VisitFunc"#,
c! r#"		TerminateExpression   VisitFunc"#,
c! r#"		ParenthesesExpression VisitFunc"#,
c! r#"		NotExpression         VisitFunc"#,
c! r#"		IdentifierNode        VisitFunc"#,
c! r#"		OperationNode         VisitFunc"#,
c! r#"		ValueNode             VisitFunc"#,
c! r#"	}"#,
c! r#")"#,
c! r#""#,
c! r#"func (v Visitor) Init() {"#,
c! r#"	noop := func(ctx context.Context, node *Node) (err error) {"#,
c! r#"		return"#,
c! r#"	}"#,
c! r#"	if v.OperationNode == nil {"#,
c! r#"		v.OperationNode = noop"#,
c! r#"	}"#,
c! r#"	if v.IdentifierNode == nil {"#,
c! r#"		v.IdentifierNode = noop"#,
c! r#"	}"#,
c! r#"	if v.ParenthesesExpression == nil {"#,
c! r#"		v.ParenthesesExpression = func(ctx context.Context, node *Node) error {"#,
c! r#"			return v.Visit(ctx, node.Expression)"#,
c! r#"		}"#,
c! r#"	}"#,
c! r#"	if v.NotExpression == nil {"#,
c! r#"		v.NotExpression = func(ctx context.Context, node *Node) error {"#,
c! r#"			return v.Visit(ctx, node.Expression)"#,
c! r#"		}"#,
c! r#"	}"#,
c! r#"	if v.FunctionExpression == nil {"#,
c! r#"		v.FunctionExpression = func(ctx context.Context, node *Node) (err error) {"#,
c! r#"			for _, n := range node.Params {"#,
c! r#"				if err = v.Visit(ctx, n); err != nil {"#,
c! r#"					return"#,
c! r#"				}"#,
c! r#"			}"#,
c! r#"			return"#,
c! r#"		}"#,
c! r#"	}"#,
c! r#"	binary := func(ctx context.Context, node *Node) (err error) {"#,
c! r#"		err = v.Visit(ctx, node.Left)"#,
c! r#"		if err == nil {"#,
c! r#"			err = v.Visit(ctx, node.Op)"#,
c! r#"		}"#,
c! r#"		if err == nil {"#,
c! r#"			err = v.Visit(ctx, node.Right)"#,
c! r#"		}"#,
c! r#"		return"#,
c! r#"	}"#,
c! r#"	if v.BinaryExpression == nil {"#,
c! r#"		v.BinaryExpression = binary"#,
c! r#"	}"#,
c! r#"	if v.LogicExpression == nil {"#,
c! r#"		v.LogicExpression = binary"#,
c! r#"	}"#,
c! r#"	if v.PredicatesExpression == nil {"#,
c! r#"		v.PredicatesExpression = func(ctx context.Context, node *Node) (err error) {"#,
c! r#"			err = v.Visit(ctx, node.Left)"#,
c! r#"			if err == nil {"#,
c! r#"				err = v.Visit(ctx, node.Op)"#,
c! r#"			}"#,
c! r#"			return"#,
c! r#"		}"#,
c! r#"	}"#,
c! r#"	if v.BetweenExpression == nil {"#,
c! r#"		v.BetweenExpression = func(ctx context.Context, node *Node) (err error) {"#,
c! r#"			err = v.Visit(ctx, node.Left)"#,
c! r#"			if err == nil {"#,
c! r#"				err = v.Visit(ctx, node.Op)"#,
c! r#"			}"#,
c! r#"			if err == nil {"#,
c! r#"				for _, n := range node.Params {"#,
c! r#"					if err = v.Visit(ctx, n); err != nil {"#,
c! r#"						return"#,
c! r#"					}"#,
c! r#"				}"#,
c! r#"			}"#,
c! r#"			return"#,
c! r#"		}"#,
c! r#"	}"#,
c! r#"	if v.ValueNode == nil {"#,
c! r#"		v.ValueNode = func(ctx context.Context, node *Node) (err error) {"#,
c! r#"			if node.ValueType == ArrayValueType {"#,
c! r#"				for _, n := range node.Array {"#,
c! r#"					if err = v.Visit(ctx, n); err != nil {"#,
c! r#"						return"#,
c! r#"					}"#,
c! r#"				}"#,
c! r#"			}"#,
c! r#"			return"#,
c! r#"		}"#,
c! r#"	}"#,
c! r#"}"#,
c! r#""#,
c! r#"func (v Visitor) Visit(ctx context.Context, n *Node) error {"#,
c! r#"	switch n.Type {"#,
c! r#"	case ValueNodeType:"#,
c! r#"		return v.ValueNode(ctx, n)"#,
c! r#"	case OperationNodeType:"#,
c! r#"		return v.OperationNode(ctx, n)"#,
c! r#"	case IdentifierNodeType:"#,
c! r#"		return v.IdentifierNode(ctx, n)"#,
c! r#"	case ParenthesesExpressionType:"#,
c! r#"		return v.ParenthesesExpression(ctx, n)"#,
c! r#"	case CompareExpressionType:"#,
c! r#"		return v.BinaryExpression(ctx, n)"#,
c! r#"	case LogicExpressionType:"#,
c! r#"		return v.LogicExpression(ctx, n)"#,
c! r#"	case PredicatesExpressionType:"#,
c! r#"		return v.PredicatesExpression(ctx, n)"#,
c! r#"	case NotExpressionType:"#,
c! r#"		return v.NotExpression(ctx, n)"#,
c! r#"	case BetweenExpressionType:"#,
c! r#"		return v.BetweenExpression(ctx, n)"#,
c! r#"	case FunctionExpressionType:"#,
c! r#"		return v.BetweenExpression(ctx, n)"#,
c! r#"	}"#,
c! r#"	return errors.Errorf("invalid type %q", n.Type)"#,
c! r#"}"#]

/-- The text of /repo/miniquery/visitor.go -/
def visitorText : Str := visitorTextLines.flatMap (· ++ ['\n'])

/-- /repo/gormq/miniquery.go:1-259 -/
def gormTextLines : List Str := [
c! r#"package gormq"#,
c! r#""#,
c! r#"import ("#,
c! r#"	"fmt""#,
c! r#"	"strings""#,
c! r#""#,
c! r#"	"github.com/pkg/errors""#,
c! r#"	"github.com/wenerme/go-miniquery/miniquery""#,
c! r#"	"gorm.io/gorm""#,
c! r#"	"gorm.io/gorm/schema""#,
c! r#")"#,
c! r#""#,
c! r#"// MiniQuery Wrap multi miniquery in one scope, will join query by and"#,
c! r#"type MiniQuery struct {"#,
c! r#"	Query []string"#,
c! r#"}"#,
c! r#""#,
c! r#"func (q MiniQuery) Scope(db *gorm.DB) *gorm.DB {"#,
c! r#"	return WireMiniQuery(db, miniquery.Join(q.Query))"#,
c! r#"}"#,
c! r#""#,
c! r#"func GetOrParseSchema(db *gorm.DB) (schema *schema.Schema, err error) {"#,
c! r#"	stat := db.Statement"#,
c! r#"	if stat.Schema == nil {"#,
c! r#"		if stat.Model != nil {"#,
c! r#"			if err = stat.Parse(stat.Model); err != nil {"#,
c! r#"				return"#,
c! r#"			}"#,
c! r#"		} else {"#,
c! r#"			return nil, fmt.Errorf("missing model")"#,
c! r#"		}"#,
c! r#"	}"#,
c! r#"	return stat.Schema, nil"#,
c! r#"}"#,
c! r#""#,
c! r#"// ApplyMiniQuery apply single miniquery"#,
c! r#"func ApplyMiniQuery(query string) func(db *gorm.DB) *gorm.DB {"#,
c! r#"	return func(db *gorm.DB) *gorm.DB {"#,
c! r#"		return WireMiniQuery(db, query)"#,
c! r#"	}"#,
c! r#"}"#,
c! r#""#,
c! r#"func WireMiniQuery(db *gorm.DB, query string) *gorm.DB {"#,
c! r#"	if query == "" {"#,
c! r#"		return db"#,
c! r#"	}"#,
c! r#"	ast, err := miniquery.Parse(query)"#,
c! r#"	if err != nil {"#,
c! r#"		_ = db.AddError(fmt.Errorf("invalid query syntax: %v", err))"#,
c! r#"		return db"#,
c! r#"	}"#,
c! r#""#,
c! r#"	schema, err := GetOrParseSchema(db)"#,
c! r#"	if err != nil {"#,
c! r#"		_ = db.AddError(err)"#,
c! r#"		return db"#,
c! r#"	}"#,
c! r#"	var vals []interface{}"#,
c! r#"	buf := &strings.Builder{}"#,
c! r#"	joined := map[string][]string{}"#,
c! r#"	quote := func(builder *strings.Builder, name string) {"#,
c! r#"		db.QuoteTo(builder, name)"#,
c! r#"	}"#,
c! r#"	qb := &queryBuilder{"#,
c! r#"		buf: buf,"#,
c! r#"		addValue: func(i interface{}) {"#,
c! r#"			vals = append(vals, i)"#,
c! r#"		},"#,
c! r#"		mapName: func(s string) (string, error) {"#,
c! r#"			n, ok := getDBName(schema, s)"#,
c! r#"			if !ok {"#,
c! r#"				return s, fmt.Errorf("field not found: %q", s)"#,
c! r#"			}"#,
c! r#"			return n, nil"#,
c! r#"		},"#,
c! r#"		join: func(s string, fieldName string) (string, error) {"#,
c! r#"			r := schema.Relationships.Relations[s]"#,
c! r#"			if r == nil {"#,
c! r#"				return "", fmt.Errorf("relation not found: %q", s)"#,
c! r#"			}"#,
c! r#""#,
c! r#"			var name string"#,
c! r#"			var ok bool"#,
c! r#"			if name, ok = getDBName(r.FieldSchema, fieldName); !ok {"#,
c! r#"				return "", fmt.Errorf("relation field not found: %q.%q", s, fieldName)"#,
c! r#"			}"#,
c! r#"			if _, ok := joined[s]; !ok {"#,
c! r#"				db = db.Joins(s)"#,
c! r#"			}"#,
c! r#"			joined[s] = append(joined[s], name)"#,
c! r#"			// gorm Join logic name"#,
c! r#"			// fixme quote"#,
c! r#"			return s + "." + name, nil"#,
c! r#"		},"#,
c! r#"		quote: quote,"#,
c! r#"	}"#,
c! r#"	err = qb.visit(ast)"#,
c! r#"	if err != nil {"#,
c! r#"		_ = db.AddError(err)"#,
c! r#"	} else {"#,
c! r#"		db = db.Where(buf.String(), vals...)"#,
c! r#"	}"#,
c! r#"	return db"#,
c! r#"}"#,
c! r#""#,
c! r#"type queryBuilder struct {"#,
c! r#"	buf      *strings.Builder"#,
c! r#"	addValue func(interface{})"#,
c! r#"	mapName  func(s string) (string, error)"#,
c! r#"	quote    func(builder *strings.Builder, name string)"#,
c! r#"	join     func(s string, f string) (string, error)"#,
c! r#"}"#,
c! r#""#,
c! r#"func (qb *queryBuilder) visitReference(node *miniquery.Node) (err error) {"#,
c! r#"	if len(node.Names) != 2 {"#,
c! r#"		return errors.New("only support join one level")"#,
c! r#"	}"#,
c! r#"	name, err := qb.join(node.Names[0], node.Names[1])"#,
c! r#"	if err != nil {"#,
c! r#"		return err"#,
c! r#"	}"#,
c! r#"	quote := qb.quote"#,
c! r#"	buf := qb.buf"#,
c! r#"	quote(buf, name)"#,
c! r#"	return"#,
c! r#"}"#,
c! r#""#,
c! r#"func (qb *queryBuilder) visitIdentifier(node *miniquery.Node) (err error) {"#,
c! r#"	buf := qb.buf"#,
c! r#"	mapName := qb.mapName"#,
c! r#"	quote := qb.quote"#,
c! r#"	name := node.Name"#,
c! r#"	/* extension to support custom virtual column */"#,
c! r#"	// switch name {"#,
c! r#"	// case "owned":"#,
c! r#"	// 	buf.WriteString("(owner_id is not null)")"#,
c! r#"	// 	return"#,
c! r#"	// case "unowned":"#,
c! r#"	// 	buf.WriteString("(owner_id is null)")"#,
c! r#"	// 	return"#,
c! r#"	// }"#,
c! r#"	name, err = mapName(name)"#,
c! r#"	if err != nil {"#,
c! r#"		return err"#,
c! r#"	}"#,
c! r#"	quote(buf, name)"#,
c! r#"	return"#,
c! r#"}"#,
c! r#""#,
c! r#"func (qb *queryBuilder) visit(node *miniquery.Node) (err error) {"#,
c! r#"	buf := qb.buf"#,
c! r#"	addValue := qb.addValue"#,
c! r#"	visit := qb.visit"#,
c! r#""#,
c! r#"	switch node.Type {"#,
c! r#"	case miniquery.OperationNodeType:"#,
c! r#"		buf.WriteString(normalizeSQL(node.Operation))"#,
c! r#"	case miniquery.ValueNodeType:"#,
c! r#"		// 支持数组值"#,
c! r#"		buf.WriteRune('?')"#,
c! r#"		addValue(node.Value())"#,
c! r#"	case miniquery.IdentifierNodeType:"#,
c! r#"		err = qb.visitIdentifier(node)"#,
c! r#"	case miniquery.ReferenceNodeType:"#,
c! r#"		err = qb.visitReference(node)"#,
c! r#"	case miniquery.ParenthesesExpressionType:"#,
c! r#"		buf.WriteRune('(')"#,
c! r#"		err = visit(node.Expression)"#,
c! r#"		buf.WriteRune(')')"#,
c! r#"	case miniquery.NotExpressionType:"#,
c! r#"		buf.WriteString("not ")"#,
c! r#"		err = visit(node.Expression)"#,
c! r#"	case miniquery.FunctionExpressionType:"#,
c! r#"		err = qb.visitFunction(node)"#,
c! r#"	case miniquery.BetweenExpressionType:"#,
c! r#"		err = visit(node.Left)"#,
c! r#"		if err == nil {"#,
c! r#"			buf.WriteRune(' ')"#,
c! r#"			err = visit(node.Op)"#,
c! r#"		}"#,
c! r#"		if err == nil {"#,
c! r#"			buf.WriteRune(' ')"#,
c! r#"			err = visit(node.Params[0])"#,
c! r#"		}"#,
c! r#"		if err == nil {"#,
c! r#"			buf.WriteString(" and ")"#,
c! r#"			err = visit(node.Params[1])"#,
c! r#"		}"#,
c! r#"	case miniquery.PredicatesExpressionType:"#,
c! r#"		fallthrough"#,
c! r#"	case miniquery.LogicExpressionType:"#,
c! r#"		fallthrough"#,
c! r#"	case miniquery.CompareExpressionType:"#,
c! r#"		err = visit(node.Left)"#,
c! r#"		if err == nil {"#,
c! r#"			buf.WriteRune(' ')"#,
c! r#"			err = visit(node.Op)"#,
c! r#"		}"#,
c! r#"		if err == nil && node.Right != nil {"#,
c! r#"			buf.WriteRune(' ')"#,
c! r#"			err = visit(node.Right)"#,
c! r#"		}"#,
c! r#"	default:"#,
c! r#"		return errors.Errorf("invalid type %q", node.Type)"#,
c! r#"	}"#,
c! r#"	return err"#,
c! r#"}"#,
c! r#""#,
c! r#"func (qb *queryBuilder) visitFunction(node *miniquery.Node) (err error) {"#,
c! r#"	buf := qb.buf"#,
c! r#"	visit := qb.visit"#,
c! r#"	switch node.Name {"#,
c! r#"	case "date":"#,
c! r#"		buf.WriteString(node.Name)"#,
c! r#"		buf.WriteString("(")"#,
c! r#"		for _, v := range node.Params {"#,
c! r#"			if err = visit(v); err != nil {"#,
c! r#"				return"#,
c! r#"			}"#,
c! r#"		}"#,
c! r#"		buf.WriteString(")")"#,
c! r#"	default:"#,
c! r#"		err = fmt.Errorf("unsupported function: %q", node.Name)"#,
c! r#"	}"#,
c! r#"	return"#,
c! r#"}"#,
c! r#""#,
c! r#"func getDBName(st *schema.Schema, name string) (string, bool) {"#,
c! r#"	if _, ok := st.FieldsByDBName[name]; ok {"#,
c! r#"		return name, true"#,
c! r#"	}"#,
c! r#"	if f, ok := st.FieldsByName[name]; ok {"#,
c! r#"		return f.DBName, true"#,
c! r#"	}"#,
c! r#"	for _, f := range st.Fields {"#,
c! r#"		if strings.EqualFold(f.Name, name) {"#,
c! r#"			return f.DBName, true"#,
c! r#"		}"#,
c! r#"	}"#,
c! r#"	return name, false"#,
c! r#"}"#,
c! r#""#,
c! r#"func normalizeSQL(s string) string {"#,
c! r#"	if v, ok := normalize[s]; ok {"#,
c! r#"		return v"#,
c! r#"	}"#,
c! r#"	return s"#,
c! r#"}"#,
c! r#""#,
c! r#"var normalize = map[string]string{"#,
c! r#"	"gt":  ">","#,
c! r#"	"gte": ">=","#,
c! r#"	"eq":  "=","#,
c! r#"	"neq": "<>","#,
c! r#"	"lt":  "<","#,
c! r#"	"lte": "<=","#,
c! r#"	"and": "and","#,
c! r#"	"or":  "or","#,
c! r#"}"#]

/-- The text of /repo/gormq/miniquery.go -/
def gormText : Str := gormTextLines.flatMap (· ++ ['\n'])

/-- /repo/entmq/entql.go:1-167 -/
def entqlTextLines : List Str := [
c! r#"package entmq"#,
c! r#""#,
c! r#"import ("#,
c! r#"	"log/slog""#,
c! r#""#,
c! r#"	"entgo.io/ent/entql""#,
c! r#"	"github.com/pkg/errors""#,
c! r#"	"github.com/wenerme/go-miniquery/miniquery""#,
c! r#")"#,
c! r#""#,
c! r#"func ApplyEntQL(q interface{ Where(p entql.P) }, queries []string) error {"#,
c! r#"	for _, v := range queries {"#,
c! r#"		mb := MiniQLToEntQLBuilder{Query: v}"#,
c! r#"		p, err := mb.Build()"#,
c! r#"		if err != nil {"#,
c! r#"			return errors.Wrapf(err, "failed to apply query: %q", v)"#,
c! r#"		}"#,
c! r#"		q.Where(p)"#,
c! r#"	}"#,
c! r#"	return nil"#,
c! r#"}"#,
c! r#""#,
c! r#"func BuildEntQL(v string) (entql.P, error) {"#,
c! r#"	mb := MiniQLToEntQLBuilder{Query: v}"#,
c! r#"	p, err := mb.Build()"#,
c! r#"	if err != nil {"#,
c! r#"		return nil, errors.Wrapf(err, "failed to build query: %q", v)"#,
c! r#"	}"#,
c! r#"	return p, nil"#,
c! r#"}"#,
c! r#""#,
c! r#"type MiniQLToEntQLBuilder struct {"#,
c! r#"	Query string"#,
c! r#"	stack []entql.Expr"#,
c! r#"}"#,
c! r#""#,
c! r#"func (mb *MiniQLToEntQLBuilder) pop() entql.Expr {"#,
c! r#"	v := mb.stack[len(mb.stack)-1]"#,
c! r#"	mb.stack = mb.stack[:len(mb.stack)-1]"#,
c! r#"	return v"#,
c! r#"}"#,
c! r#""#,
c! r#"func (mb *MiniQLToEntQLBuilder) push(e entql.Expr) {"#,
c! r#"	mb.stack = append(mb.stack, e)"#,
c! r#"}"#,
c! r#""#,
c! r#"func (mb *MiniQLToEntQLBuilder) Build() (p entql.P, err error) {"#,
c! r#"	if mb.Query == "" {"#,
c! r#"		return"#,
c! r#"	}"#,
c! r#"	node, err := miniquery.Parse(mb.Query)"#,
c! r#"	if err != nil {"#,
c! r#"		return nil, err"#,
c! r#"	}"#,
c! r#"	err = mb.visit(node)"#,
c! r#"	if err == nil && len(mb.stack) > 0 {"#,
c! r#"		p = mb.pop().(entql.P)"#,
c! r#"		if len(mb.stack) > 1 {"#,
c! r#"			slog.With("query", mb.Query).Error("unexpected MiniQLBuilder stack size", "size", len(mb.stack))"#,
c! r#"		}"#,
c! r#"	}"#,
c! r#"	return"#,
c! r#"}"#,
c! r#""#,
c! r#"func (mb *MiniQLToEntQLBuilder) visit(node *miniquery.Node) (err error) {"#,
c! r#"	visit := mb.visit"#,
c! r#""#,
c! r#"	switch node.Type {"#,
c! r#"	case miniquery.OperationNodeType:"#,
c! r#"		return errors.Errorf("unexpected op node: %q", node)"#,
c! r#"	case miniquery.ValueNodeType:"#,
c! r#"		mb.push(&entql.Value{V: node.Value()})"#,
c! r#"	case miniquery.IdentifierNodeType:"#,
c! r#"		mb.push(entql.F(node.Name))"#,
c! r#"		/*"#,
c! r#"			switch name {"#,
c! r#"			case "owned":"#,
c! r#"				buf.WriteString("(owner_id is not null)")"#,
c! r#"				return"#,
c! r#"			case "unowned":"#,
c! r#"				buf.WriteString("(owner_id is null)")"#,
c! r#"				return"#,
c! r#"			}"#,
c! r#"		*/"#,
c! r#"	case miniquery.ParenthesesExpressionType:"#,
c! r#"		err = visit(node.Expression)"#,
c! r#"	case miniquery.NotExpressionType:"#,
c! r#"		err = visit(node.Expression)"#,
c! r#"		if err != nil {"#,
c! r#"			mb.push(entql.Not(mb.pop().(entql.P)))"#,
c! r#"		}"#,
c! r#"	case miniquery.FunctionExpressionType:"#,
c! r#"		// err = qb.visitFunction(node)"#,
c! r#""#,
c! r#"	case miniquery.BetweenExpressionType:"#,
c! r#"		err = visit(node.Left)"#,
c! r#"		if err == nil {"#,
c! r#"			err = visit(node.Params[0])"#,
c! r#"		}"#,
c! r#"		if err == nil {"#,
c! r#"			err = visit(node.Params[1])"#,
c! r#"		}"#,
c! r#"		if err == nil {"#,
c! r#"			hig := mb.pop()"#,
c! r#"			low := mb.pop()"#,
c! r#"			left := mb.pop()"#,
c! r#"			lo := entql.OpGTE"#,
c! r#"			ro := entql.OpLTE"#,
c! r#"			if node.Op.Operation == miniquery.OpNotBetween {"#,
c! r#"				lo = entql.OpLT"#,
c! r#"				ro = entql.OpGT"#,
c! r#"			}"#,
c! r#"			mb.push(entql.And("#,
c! r#"				&entql.BinaryExpr{"#,
c! r#"					Op: lo,"#,
c! r#"					X:  left,"#,
c! r#"					Y:  low,"#,
c! r#"				},"#,
c! r#"				&entql.BinaryExpr{"#,
c! r#"					Op: ro,"#,
c! r#"					X:  left,"#,
c! r#"					Y:  hig,"#,
c! r#"				},"#,
c! r#"			))"#,
c! r#""#,
c! r#"		}"#,
c! r#"	case miniquery.PredicatesExpressionType:"#,
c! r#"		panic("TODO")"#,
c! r#"	case miniquery.LogicExpressionType:"#,
c! r#"		fallthrough"#,
c! r#"	case miniquery.CompareExpressionType:"#,
c! r#"		err = visit(node.Left)"#,
c! r#"		if err == nil {"#,
c! r#"			err = visit(node.Right)"#,
c! r#"		}"#,
c! r#"		if err == nil {"#,
c! r#"			right := mb.pop()"#,
c! r#"			left := mb.pop()"#,
c! r#"			op, found := entqlOpMap[node.Op.Operation]"#,
c! r#"			if !found {"#,
c! r#"				return errors.Errorf("unexpected op %q", node.Op.Operation)"#,
c! r#"			}"#,
c! r#"			mb.push(&entql.BinaryExpr{"#,
c! r#"				Op: op,"#,
c! r#"				X:  left,"#,
c! r#"				Y:  right,"#,
c! r#"			})"#,
c! r#"		}"#,
c! r#"	default:"#,
c! r#"		return errors.Errorf("invalid type %q", node.Type)"#,
c! r#"	}"#,
c! r#"	return err"#,
c! r#"}"#,
c! r#""#,
c! r#"var entqlOpMap = map[miniquery.OpType]entql.Op{"#,
c! r#"	miniquery.OpAnd:   entql.OpAnd,"#,
c! r#"	miniquery.OpOr:    entql.OpOr,"#,
c! r#"	miniquery.OpNot:   entql.OpNot,"#,
c! r#"	miniquery.OpEQ:    entql.OpEQ,"#,
c! r#"	miniquery.OpNEQ:   entql.OpNEQ,"#,
c! r#"	miniquery.OpGT:    entql.OpGT,"#,
c! r#"	miniquery.OpGTE:   entql.OpGTE,"#,
c! r#"	miniquery.OpLT:    entql.OpLT,"#,
c! r#"	miniquery.OpLTE:   entql.OpLTE,"#,
c! r#"	miniquery.OpIn:    entql.OpIn,"#,
c! r#"	miniquery.OpNotIn: entql.OpNotIn,"#,
c! r#"}"#]

/-- The text of /repo/entmq/entql.go -/
def entqlText : Str := entqlTextLines.flatMap (· ++ ['\n'])

/-- /repo/entmq/entsql_util.go:1-42 -/
def utilTextLines : List Str := [
c! r#"package entmq"#,
c! r#""#,
c! r#"import ("#,
c! r#"	"database/sql/driver""#,
c! r#""#,
c! r#"	"entgo.io/ent/dialect""#,
c! r#"	"entgo.io/ent/dialect/sql""#,
c! r#")"#,
c! r#""#,
c! r#"func argWithCast(in interface{}) interface{} {"#,
c! r#"	return typeCastParamFormatter{in}"#,
c! r#"}"#,
c! r#""#,
c! r#"type typeCastParamFormatter struct {"#,
c! r#"	v interface{}"#,
c! r#"}"#,
c! r#""#,
c! r#"func (f typeCastParamFormatter) FormatParam(placeholder string, info *sql.StmtInfo) string {"#,
c! r#"	// https://github.com/jackc/pgx/issues/798 pg 需要 cast 来支持 1=1 -> $1=$2"#,
c! r#"	if info.Dialect == dialect.Postgres {"#,
c! r#"		var typ string"#,
c! r#"		switch f.v.(type) {"#,
c! r#"		case int:"#,
c! r#"			typ = "int""#,
c! r#"		// 字符串不 cast - 处理时间和字符串比较的场景"#,
c! r#"		// case string:"#,
c! r#"		//	typ = "text""#,
c! r#"		case bool:"#,
c! r#"			typ = "bool""#,
c! r#"		case float64:"#,
c! r#"			typ = "double precision""#,
c! r#"		default:"#,
c! r#"			return placeholder"#,
c! r#"		}"#,
c! r#"		return placeholder + "::" + typ"#,
c! r#"	}"#,
c! r#"	return placeholder"#,
c! r#"}"#,
c! r#""#,
c! r#"func (f typeCastParamFormatter) Value() (driver.Value, error) {"#,
c! r#"	return f.v, nil"#,
c! r#"}"#]

/-- The text of /repo/entmq/entsql_util.go -/
def utilText : Str := utilTextLines.flatMap (· ++ ['\n'])

/-- /repo/entmq/entsql.go:1-228 -/
def entsqlTextLines : List Str := [
c! r#"package entmq"#,
c! r#""#,
c! r#"import ("#,
c! r#"	"reflect""#,
c! r#"	"strings""#,
c! r#"	"unsafe""#,
c! r#""#,
c! r#"	"github.com/wenerme/go-miniquery/miniquery""#,
c! r#""#,
c! r#"	"entgo.io/ent/dialect/sql""#,
c! r#"	"entgo.io/ent/dialect/sql/sqlgraph""#,
c! r#"	"github.com/huandu/xstrings""#,
c! r#"	"github.com/pkg/errors""#,
c! r#")"#,
c! r#""#,
c! r#"type MiniQLToEntSQLBuilder struct {"#,
c! r#"	Node        *sqlgraph.Node"#,
c! r#"	QueryString string"#,
c! r#"	ast         *miniquery.Node"#,
c! r#"	SQLBuilder  *sql.Builder"#,
c! r#"	Graph       *sqlgraph.Schema"#,
c! r#"	sql.Builder"#,
c! r#"	DisableTypeCasting bool"#,
c! r#"}"#,
c! r#""#,
c! r#"// Query impl sql.Querier"#,
c! r#"func (mb *MiniQLToEntSQLBuilder) Query() (string, []interface{}) {"#,
c! r#"	if mb.ast == nil {"#,
c! r#"		ast, err := miniquery.Parse(mb.QueryString)"#,
c! r#"		if err != nil {"#,
c! r#"			mb.AddError(err)"#,
c! r#"			return "", nil"#,
c! r#"		}"#,
c! r#"		mb.ast = ast"#,
c! r#"	}"#,
c! r#"	err := mb.visit(mb.ast)"#,
c! r#"	if err != nil {"#,
c! r#"		mb.AddError(err)"#,
c! r#"		return "", nil"#,
c! r#"	}"#,
c! r#"	return mb.Builder.Query()"#,
c! r#"}"#,
c! r#""#,
c! r#"//nolint:golint,gocyclo"#,
c! r#"func (mb *MiniQLToEntSQLBuilder) visit(node *miniquery.Node) (err error) {"#,
c! r#"	visit := mb.visit"#,
c! r#"	s := mb.SQLBuilder"#,
c! r#"	if s == nil {"#,
c! r#"		s = &mb.Builder"#,
c! r#"	}"#,
c! r#"	switch node.Type {"#,
c! r#"	case miniquery.OperationNodeType:"#,
c! r#"		return errors.Errorf("unexpected op node: %q", node)"#,
c! r#"	case miniquery.ValueNodeType:"#,
c! r#"		if node.ValueType == miniquery.ArrayValueType {"#,
c! r#"			s.WriteString("(")"#,
c! r#"			s.Args(node.Value().([]interface{})...)"#,
c! r#"			s.WriteString(")")"#,
c! r#"		} else {"#,
c! r#"			// s.Arg(typeCastParamFormatter{node.Value()})"#,
c! r#"			if mb.DisableTypeCasting {"#,
c! r#"				s.Arg(node.Value())"#,
c! r#"			} else {"#,
c! r#"				s.Arg(argWithCast(node.Value()))"#,
c! r#"			}"#,
c! r#"		}"#,
c! r#"	case miniquery.IdentifierNodeType:"#,
c! r#"		// fixme 检测字段是否存在"#,
c! r#"		s.Ident(xstrings.ToSnakeCase(node.Name))"#,
c! r#"		/*"#,
c! r#"			switch name {"#,
c! r#"			case "owned":"#,
c! r#"				buf.WriteString("(owner_id is not null)")"#,
c! r#"				return"#,
c! r#"			case "unowned":"#,
c! r#"				buf.WriteString("(owner_id is null)")"#,
c! r#"				return"#,
c! r#"			}"#,
c! r#"		*/"#,
c! r#"	case miniquery.ParenthesesExpressionType:"#,
c! r#"		s.WriteString("(")"#,
c! r#"		err = visit(node.Expression)"#,
c! r#"		s.WriteString(")")"#,
c! r#"	case miniquery.NotExpressionType:"#,
c! r#"		s.WriteString("NOT ")"#,
c! r#"		err = visit(node.Expression)"#,
c! r#"	case miniquery.FunctionExpressionType:"#,
c! r#"		// err = qb.visitFunction(node)"#,
c! r#"		switch node.Name {"#,
c! r#"		case "date":"#,
c! r#"			// 截取为日期"#,
c! r#"			// date(xxx)"#,
c! r#"			s.WriteString("DATE(")"#,
c! r#"			err = mb.visit(node.Params[0])"#,
c! r#"			s.WriteString(")")"#,
c! r#"		case "has_edge":"#,
c! r#""#,
c! r#"			params := node.Params"#,
c! r#"			if len(params) == 0 || params[0].Name == "" {"#,
c! r#"				err = errors.New("关联参数错误")"#,
c! r#"				break"#,
c! r#"			}"#,
c! r#""#,
c! r#"			tab := mb.Node"#,
c! r#"			builder := sql.Dialect(mb.Dialect()).Select().From(sql.Table(tab.Table).Schema(tab.Schema))"#,
c! r#"			edge, ok := tab.Edges[params[0].Name]"#,
c! r#"			if !ok {"#,
c! r#"				err = errors.Errorf("不存在关联: %q", params[0].Name)"#,
c! r#"				break"#,
c! r#"			}"#,
c! r#"			switch len(params) {"#,
c! r#"			case 1:"#,
c! r#"				sqlgraph.HasNeighbors(builder, sqlgraph.NewStep("#,
c! r#"					sqlgraph.From(tab.Table, tab.ID.Column),"#,
c! r#"					sqlgraph.To(edge.To.Table, edge.To.ID.Column),"#,
c! r#"					sqlgraph.Edge(edge.Spec.Rel, edge.Spec.Inverse, edge.Spec.Table, edge.Spec.Columns...),"#,
c! r#"				))"#,
c! r#"			case 2:"#,
c! r#"				if !params[1].IsExpression() {"#,
c! r#"					err = errors.Errorf("关联条件错误: %q", params[1].String())"#,
c! r#"					break"#,
c! r#"				}"#,
c! r#"				sqlgraph.HasNeighborsWith(builder, sqlgraph.NewStep("#,
c! r#"					sqlgraph.From(tab.Table, tab.ID.Column),"#,
c! r#"					sqlgraph.To(edge.To.Table, edge.To.ID.Column),"#,
c! r#"					sqlgraph.Edge(edge.Spec.Rel, edge.Spec.Inverse, edge.Spec.Table, edge.Spec.Columns...),"#,
c! r#"				), func(selector *sql.Selector) {"#,
c! r#"					selector.Where(sql.P(func(builder *sql.Builder) {"#,
c! r#"						mb := &MiniQLToEntSQLBuilder{"#,
c! r#"							ast:                params[1],"#,
c! r#"							Node:               edge.To,"#,
c! r#"							DisableTypeCasting: mb.DisableTypeCasting,"#,
c! r#"						}"#,
c! r#"						builder.Join(mb)"#,
c! r#"						err := mb.Err()"#,
c! r#"						if err != nil {"#,
c! r#"							builder.AddError(err)"#,
c! r#"						}"#,
c! r#"					}))"#,
c! r#"				})"#,
c! r#"			default:"#,
c! r#"				err = errors.New("关联参数错误")"#,
c! r#"			}"#,
c! r#"			if err == nil {"#,
c! r#"				// hack reflect access"#,
c! r#"				rv := reflect.ValueOf(builder).Elem()"#,
c! r#"				rf := rv.FieldByName("where")"#,
c! r#"				rf = reflect.NewAt(rf.Type(), unsafe.Pointer(rf.UnsafeAddr())).Elem()"#,
c! r#"				p := rf.Interface().(*sql.Predicate)"#,
c! r#"				err = p.Err()"#,
c! r#"				mb.Join(p)"#,
c! r#"			}"#,
c! r#"		default:"#,
c! r#"			err = errors.Errorf("不支持的函数: %q", node.Name)"#,
c! r#"		}"#,
c! r#"	case miniquery.BetweenExpressionType:"#,
c! r#"		lo := sql.OpGTE"#,
c! r#"		ro := sql.OpLTE"#,
c! r#"		if node.Op.Operation == miniquery.OpNotBetween {"#,
c! r#"			lo = sql.OpLT"#,
c! r#"			ro = sql.OpGT"#,
c! r#"		}"#,
c! r#""#,
c! r#"		err = visit(node.Left)"#,
c! r#"		if err == nil {"#,
c! r#"			s.WriteOp(lo)"#,
c! r#"			err = visit(node.Params[0])"#,
c! r#"		}"#,
c! r#"		if err == nil {"#,
c! r#"			s.WriteString(" AND ")"#,
c! r#"		}"#,
c! r#"		if err == nil {"#,
c! r#"			err = visit(node.Left)"#,
c! r#"		}"#,
c! r#"		if err == nil {"#,
c! r#"			s.WriteOp(ro)"#,
c! r#"			err = visit(node.Params[1])"#,
c! r#"		}"#,
c! r#"	case miniquery.PredicatesExpressionType:"#,
c! r#"		op, found := entsqlOpMap[node.Op.Operation]"#,
c! r#"		if !found {"#,
c! r#"			return errors.Errorf("unexpected predicate op %q", node.Op.Operation)"#,
c! r#"		}"#,
c! r#"		err = visit(node.Left)"#,
c! r#"		s.WriteOp(op)"#,
c! r#"	case miniquery.LogicExpressionType:"#,
c! r#"		fallthrough"#,
c! r#"	case miniquery.CompareExpressionType:"#,
c! r#"		err = visit(node.Left)"#,
c! r#"		op, found := entsqlOpMap[node.Op.Operation]"#,
c! r#"		if !found {"#,
c! r#"			switch node.Op.Operation {"#,
c! r#"			case miniquery.OpNotLike:"#,
c! r#"				fallthrough"#,
c! r#"			case miniquery.OpAnd:"#,
c! r#"				fallthrough"#,
c! r#"			case miniquery.OpOr:"#,
c! r#"				s.Pad().WriteString(strings.ToUpper(node.Op.Operation)).Pad()"#,
c! r#"				found = true"#,
c! r#"			}"#,
c! r#"		} else {"#,
c! r#"			s.WriteOp(op)"#,
c! r#"		}"#,
c! r#"		if !found {"#,
c! r#"			return errors.Errorf("unexpected op %q", node.Op.Operation)"#,
c! r#"		}"#,
c! r#"		if err == nil {"#,
c! r#"			err = visit(node.Right)"#,
c! r#"		}"#,
c! r#"	default:"#,
c! r#"		return errors.Errorf("invalid type %q", node.Type)"#,
c! r#"	}"#,
c! r#"	return err"#,
c! r#"}"#,
c! r#""#,
c! r#"var entsqlOpMap = map[miniquery.OpType]sql.Op{"#,
c! r#"	miniquery.OpEQ:        sql.OpEQ,"#,
c! r#"	miniquery.OpNEQ:       sql.OpNEQ,"#,
c! r#"	miniquery.OpGT:        sql.OpGT,"#,
c! r#"	miniquery.OpGTE:       sql.OpGTE,"#,
c! r#"	miniquery.OpLT:        sql.OpLT,"#,
c! r#"	miniquery.OpLTE:       sql.OpLTE,"#,
c! r#"	miniquery.OpIn:        sql.OpIn,"#,
c! r#"	miniquery.OpNotIn:     sql.OpNotIn,"#,
c! r#"	miniquery.OpLike:      sql.OpLike,"#,
c! r#"	miniquery.OpIsNull:    sql.OpIsNull,"#,
c! r#"	miniquery.OpIsNotNull: sql.OpNotNull,"#,
c! r#"}"#]

/-- The text of /repo/entmq/entsql.go -/
def entsqlText : Str := entsqlTextLines.flatMap (· ++ ['\n'])

/-- /repo/miniquery/miniquery.peg.go:262-272, 360-433, the type of parser objects and `Execute` -/
def pegTextLines : List Str := [
c! r#"type MiniQueryPeg struct {"#,
c! r#"	*Tree"#,
c! r#""#,
c! r#"	Buffer string"#,
c! r#"	buffer []rune"#,
c! r#"	rules  [64]func() bool"#,
c! r#"	parse  func(rule ...int) error"#,
c! r#"	reset  func()"#,
c! r#"	Pretty bool"#,
c! r#"	tokens32"#,
c! r#"}"#,
c! r#"func (p *MiniQueryPeg) Execute() {"#,
c! r#"	buffer, _buffer, text, begin, end := p.Buffer, p.buffer, "", 0, 0"#,
c! r#"	for _, token := range p.Tokens() {"#,
c! r#"		switch token.pegRule {"#,
c! r#""#,
c! r#"		case rulePegText:"#,
c! r#"			begin, end = int(token.begin), int(token.end)"#,
c! r#"			text = string(_buffer[begin:end])"#,
c! r#""#,
c! r#"		case ruleAction0:"#,
c! r#"			p.PopLogic()"#,
c! r#"		case ruleAction1:"#,
c! r#"			p.PopNot()"#,
c! r#"		case ruleAction2:"#,
c! r#"			p.PopCompare()"#,
c! r#"		case ruleAction3:"#,
c! r#"			p.AddCompare(text)"#,
c! r#"		case ruleAction4:"#,
c! r#"			p.PopCompare()"#,
c! r#"		case ruleAction5:"#,
c! r#"			p.PopPredicate()"#,
c! r#"		case ruleAction6:"#,
c! r#"			p.AddOperation(text)"#,
c! r#"		case ruleAction7:"#,
c! r#"			p.PopBetween()"#,
c! r#"		case ruleAction8:"#,
c! r#"			p.PopParentheses()"#,
c! r#"		case ruleAction9:"#,
c! r#"			p.PopFunction()"#,
c! r#"		case ruleAction10:"#,
c! r#"			p.AddMark()"#,
c! r#"		case ruleAction11:"#,
c! r#"			p.PopArray()"#,
c! r#"		case ruleAction12:"#,
c! r#"			p.AddMark()"#,
c! r#"		case ruleAction13:"#,
c! r#"			p.PopIdentifierReference()"#,
c! r#"		case ruleAction14:"#,
c! r#"			p.AddName(text)"#,
c! r#"		case ruleAction15:"#,
c! r#"			p.AddCompare(text)"#,
c! r#"		case ruleAction16:"#,
c! r#"			p.AddCompare(text)"#,
c! r#"		case ruleAction17:"#,
c! r#"			p.AddCompare(text)"#,
c! r#"		case ruleAction18:"#,
c! r#"			p.AddLogic(text)"#,
c! r#"		case ruleAction19:"#,
c! r#"			p.AddLogic(text)"#,
c! r#"		case ruleAction20:"#,
c! r#"			p.AddMatch(text)"#,
c! r#"		case ruleAction21:"#,
c! r#"			p.AddMark()"#,
c! r#"		case ruleAction22:"#,
c! r#"			p.PopArray()"#,
c! r#"		case ruleAction23:"#,
c! r#"			p.AddMark()"#,
c! r#"		case ruleAction24:"#,
c! r#"			p.PopArray()"#,
c! r#"		case ruleAction25:"#,
c! r#"			p.AddInteger(text)"#,
c! r#"		case ruleAction26:"#,
c! r#"			p.AddBoolean(text)"#,
c! r#"		case ruleAction27:"#,
c! r#"			p.AddNull()"#,
c! r#"		case ruleAction28:"#,
c! r#"			p.AddString(text)"#,
c! r#"		case ruleAction29:"#,
c! r#"			p.AddString(text)"#,
c! r#""#,
c! r#"		}"#,
c! r#"	}"#,
c! r#"	_, _, _, _, _ = buffer, _buffer, text, begin, end"#,
c! r#"}"#]

/-- The text of these lines. -/
def pegText : Str := pegTextLines.flatMap (· ++ ['\n'])

end Verif.Mini

import Verif.Gen.Ast

/-! # The text of the support code of the generated file -/

namespace Verif.Gen

/-- /repo/miniquery/miniquery.peg.go:14, 86-358, 435-522, 3360-3363, unchanged: everything but the numbering of the rules (16-84), `Execute` (360-433, see
`Verif.Mini.Text`) and the rule functions (523-3359, see `Verif.GoCode`). -/
def supportLines : List Str := [
c! r#"const endSymbol rune = 1114112"#,
c! r#"var rul3s = [...]string{"#,
c! r#"	"Unknown","#,
c! r#"	"Grammar","#,
c! r#"	"Expression","#,
c! r#"	"LogicExpression","#,
c! r#"	"NotExpression","#,
c! r#"	"CompareExpression","#,
c! r#"	"CompareInExpression","#,
c! r#"	"PredicateExpression","#,
c! r#"	"BetweenExpression","#,
c! r#"	"PrimaryExpression","#,
c! r#"	"ArgumentList","#,
c! r#"	"Argument","#,
c! r#"	"Reference","#,
c! r#"	"IdentifierReference","#,
c! r#"	"JsonReference","#,
c! r#"	"Identifier","#,
c! r#"	"Compare","#,
c! r#"	"Logic","#,
c! r#"	"Match","#,
c! r#"	"Value","#,
c! r#"	"Array","#,
c! r#"	"Literal","#,
c! r#"	"Integer","#,
c! r#"	"Boolean","#,
c! r#"	"Null","#,
c! r#"	"String","#,
c! r#"	"SpaceComment","#,
c! r#"	"_","#,
c! r#"	"__","#,
c! r#"	"Comment","#,
c! r#"	"Space","#,
c! r#"	"EndOfLine","#,
c! r#"	"EndOfFile","#,
c! r#"	"Action0","#,
c! r#"	"Action1","#,
c! r#"	"Action2","#,
c! r#"	"PegText","#,
c! r#"	"Action3","#,
c! r#"	"Action4","#,
c! r#"	"Action5","#,
c! r#"	"Action6","#,
c! r#"	"Action7","#,
c! r#"	"Action8","#,
c! r#"	"Action9","#,
c! r#"	"Action10","#,
c! r#"	"Action11","#,
c! r#"	"Action12","#,
c! r#"	"Action13","#,
c! r#"	"Action14","#,
c! r#"	"Action15","#,
c! r#"	"Action16","#,
c! r#"	"Action17","#,
c! r#"	"Action18","#,
c! r#"	"Action19","#,
c! r#"	"Action20","#,
c! r#"	"Action21","#,
c! r#"	"Action22","#,
c! r#"	"Action23","#,
c! r#"	"Action24","#,
c! r#"	"Action25","#,
c! r#"	"Action26","#,
c! r#"	"Action27","#,
c! r#"	"Action28","#,
c! r#"	"Action29","#,
c! r#"}"#,
c! r#""#,
c! r#"type token32 struct {"#,
c! r#"	pegRule"#,
c! r#"	begin, end uint32"#,
c! r#"}"#,
c! r#""#,
c! r#"func (t *token32) String() string {"#,
c! r#"	return fmt.Sprintf("\x1B[34m%v\x1B[m %v %v", rul3s[t.pegRule], t.begin, t.end)"#,
c! r#"}"#,
c! r#""#,
c! r#"type node32 struct {"#,
c! r#"	token32"#,
c! r#"	up, next *node32"#,
c! r#"}"#,
c! r#""#,
c! r#"func (node *node32) print(w io.Writer, pretty bool, buffer string) {"#,
c! r#"	var print func(node *node32, depth int)"#,
c! r#"	print = func(node *node32, depth int) {"#,
c! r#"		for node != nil {"#,
c! r#"			for c := 0; c < depth; c++ {"#,
c! r#"				fmt.Fprintf(w, " ")"#,
c! r#"			}"#,
c! r#"			rule := rul3s[node.pegRule]"#,
c! r#"			quote := strconv.Quote(string(([]rune(buffer)[node.begin:node.end])))"#,
c! r#"			if !pretty {"#,
c! r#"				fmt.Fprintf(w, "%v %v\n", rule, quote)"#,
c! r#"			} else {"#,
c! r#"				fmt.Fprintf(w, "\x1B[36m%v\x1B[m %v\n", rule, quote)"#,
c! r#"			}"#,
c! r#"			if node.up != nil {"#,
c! r#"				print(node.up, depth+1)"#,
c! r#"			}"#,
c! r#"			node = node.next"#,
c! r#"		}"#,
c! r#"	}"#,
c! r#"	print(node, 0)"#,
c! r#"}"#,
c! r#""#,
c! r#"func (node *node32) Print(w io.Writer, buffer string) {"#,
c! r#"	node.print(w, false, buffer)"#,
c! r#"}"#,
c! r#""#,
c! r#"func (node *node32) PrettyPrint(w io.Writer, buffer string) {"#,
c! r#"	node.print(w, true, buffer)"#,
c! r#"}"#,
c! r#""#,
c! r#"type tokens32 struct {"#,
c! r#"	tree []token32"#,
c! r#"}"#,
c! r#""#,
c! r#"func (t *tokens32) Trim(length uint32) {"#,
c! r#"	t.tree = t.tree[:length]"#,
c! r#"}"#,
c! r#""#,
c! r#"func (t *tokens32) Print() {"#,
c! r#"	for _, token := range t.tree {"#,
c! r#"		fmt.Println(token.String())"#,
c! r#"	}"#,
c! r#"}"#,
c! r#""#,
c! r#"func (t *tokens32) AST() *node32 {"#,
c! r#"	type element struct {"#,
c! r#"		node *node32"#,
c! r#"		down *element"#,
c! r#"	}"#,
c! r#"	tokens := t.Tokens()"#,
c! r#"	var stack *element"#,
c! r#"	for _, token := range tokens {"#,
c! r#"		if token.begin == token.end {"#,
c! r#"			continue"#,
c! r#"		}"#,
c! r#"		node := &node32{token32: token}"#,
c! r#"		for stack != nil && stack.node.begin >= token.begin && stack.node.end <= token.end {"#,
c! r#"			stack.node.next = node.up"#,
c! r#"			node.up = stack.node"#,
c! r#"			stack = stack.down"#,
c! r#"		}"#,
c! r#"		stack = &element{node: node, down: stack}"#,
c! r#"	}"#,
c! r#"	if stack != nil {"#,
c! r#"		return stack.node"#,
c! r#"	}"#,
c! r#"	return nil"#,
c! r#"}"#,
c! r#""#,
c! r#"func (t *tokens32) PrintSyntaxTree(buffer string) {"#,
c! r#"	t.AST().Print(os.Stdout, buffer)"#,
c! r#"}"#,
c! r#""#,
c! r#"func (t *tokens32) WriteSyntaxTree(w io.Writer, buffer string) {"#,
c! r#"	t.AST().Print(w, buffer)"#,
c! r#"}"#,
c! r#""#,
c! r#"func (t *tokens32) PrettyPrintSyntaxTree(buffer string) {"#,
c! r#"	t.AST().PrettyPrint(os.Stdout, buffer)"#,
c! r#"}"#,
c! r#""#,
c! r#"func (t *tokens32) Add(rule pegRule, begin, end, index uint32) {"#,
c! r#"	tree, i := t.tree, int(index)"#,
c! r#"	if i >= len(tree) {"#,
c! r#"		t.tree = append(tree, token32{pegRule: rule, begin: begin, end: end})"#,
c! r#"		return"#,
c! r#"	}"#,
c! r#"	tree[i] = token32{pegRule: rule, begin: begin, end: end}"#,
c! r#"}"#,
c! r#""#,
c! r#"func (t *tokens32) Tokens() []token32 {"#,
c! r#"	return t.tree"#,
c! r#"}"#,
c! r#""#,
c! r#"type MiniQueryPeg struct {"#,
c! r#"	*Tree"#,
c! r#""#,
c! r#"	Buffer string"#,
c! r#"	buffer []rune"#,
c! r#"	rules  [64]func() bool"#,
c! r#"	parse  func(rule ...int) error"#,
c! r#"	reset  func()"#,
c! r#"	Pretty bool"#,
c! r#"	tokens32"#,
c! r#"}"#,
c! r#""#,
c! r#"func (p *MiniQueryPeg) Parse(rule ...int) error {"#,
c! r#"	return p.parse(rule...)"#,
c! r#"}"#,
c! r#""#,
c! r#"func (p *MiniQueryPeg) Reset() {"#,
c! r#"	p.reset()"#,
c! r#"}"#,
c! r#""#,
c! r#"type textPosition struct {"#,
c! r#"	line, symbol int"#,
c! r#"}"#,
c! r#""#,
c! r#"type textPositionMap map[int]textPosition"#,
c! r#""#,
c! r#"func translatePositions(buffer []rune, positions []int) textPositionMap {"#,
c! r#"	length, translations, j, line, symbol := len(positions), make(textPositionMap, len(positions)), 0, 1, 0"#,
c! r#"	sort.Ints(positions)"#,
c! r#""#,
c! r#"search:"#,
c! r#"	for i, c := range buffer {"#,
c! r#"		if c == '\n' {"#,
c! r#"			line, symbol = line+1, 0"#,
c! r#"		} else {"#,
c! r#"			symbol++"#,
c! r#"		}"#,
c! r#"		if i == positions[j] {"#,
c! r#"			translations[positions[j]] = textPosition{line, symbol}"#,
c! r#"			for j++; j < length; j++ {"#,
c! r#"				if i != positions[j] {"#,
c! r#"					continue search"#,
c! r#"				}"#,
c! r#"			}"#,
c! r#"			break search"#,
c! r#"		}"#,
c! r#"	}"#,
c! r#""#,
c! r#"	return translations"#,
c! r#"}"#,
c! r#""#,
c! r#"type parseError struct {"#,
c! r#"	p   *MiniQueryPeg"#,
c! r#"	max token32"#,
c! r#"}"#,
c! r#""#,
c! r#"func (e *parseError) Error() string {"#,
c! r#"	tokens, err := []token32{e.max}, "\n""#,
c! r#"	positions, p := make([]int, 2*len(tokens)), 0"#,
c! r#"	for _, token := range tokens {"#,
c! r#"		positions[p], p = int(token.begin), p+1"#,
c! r#"		positions[p], p = int(token.end), p+1"#,
c! r#"	}"#,
c! r#"	translations := translatePositions(e.p.buffer, positions)"#,
c! r#"	format := "parse error near %v (line %v symbol %v - line %v symbol %v):\n%v\n""#,
c! r#"	if e.p.Pretty {"#,
c! r#"		format = "parse error near \x1B[34m%v\x1B[m (line %v symbol %v - line %v symbol %v):\n%v\n""#,
c! r#"	}"#,
c! r#"	for _, token := range tokens {"#,
c! r#"		begin, end := int(token.begin), int(token.end)"#,
c! r#"		err += fmt.Sprintf(format,"#,
c! r#"			rul3s[token.pegRule],"#,
c! r#"			translations[begin].line, translations[begin].symbol,"#,
c! r#"			translations[end].line, translations[end].symbol,"#,
c! r#"			strconv.Quote(string(e.p.buffer[begin:end])))"#,
c! r#"	}"#,
c! r#""#,
c! r#"	return err"#,
c! r#"}"#,
c! r#""#,
c! r#"func (p *MiniQueryPeg) PrintSyntaxTree() {"#,
c! r#"	if p.Pretty {"#,
c! r#"		p.tokens32.PrettyPrintSyntaxTree(p.Buffer)"#,
c! r#"	} else {"#,
c! r#"		p.tokens32.PrintSyntaxTree(p.Buffer)"#,
c! r#"	}"#,
c! r#"}"#,
c! r#""#,
c! r#"func (p *MiniQueryPeg) WriteSyntaxTree(w io.Writer) {"#,
c! r#"	p.tokens32.WriteSyntaxTree(w, p.Buffer)"#,
c! r#"}"#,
c! r#""#,
c! r#"func (p *MiniQueryPeg) SprintSyntaxTree() string {"#,
c! r#"	var bldr strings.Builder"#,
c! r#"	p.WriteSyntaxTree(&bldr)"#,
c! r#"	return bldr.String()"#,
c! r#"}"#,
c! r#"func Pretty(pretty bool) func(*MiniQueryPeg) error {"#,
c! r#"	return func(p *MiniQueryPeg) error {"#,
c! r#"		p.Pretty = pretty"#,
c! r#"		return nil"#,
c! r#"	}"#,
c! r#"}"#,
c! r#""#,
c! r#"func Size(size int) func(*MiniQueryPeg) error {"#,
c! r#"	return func(p *MiniQueryPeg) error {"#,
c! r#"		p.tokens32 = tokens32{tree: make([]token32, 0, size)}"#,
c! r#"		return nil"#,
c! r#"	}"#,
c! r#"}"#,
c! r#""#,
c! r#"func (p *MiniQueryPeg) Init(options ...func(*MiniQueryPeg) error) error {"#,
c! r#"	var ("#,
c! r#"		max                  token32"#,
c! r#"		position, tokenIndex uint32"#,
c! r#"		buffer               []rune"#,
c! r#"	)"#,
c! r#"	for _, option := range options {"#,
c! r#"		err := option(p)"#,
c! r#"		if err != nil {"#,
c! r#"			return err"#,
c! r#"		}"#,
c! r#"	}"#,
c! r#"	p.reset = func() {"#,
c! r#"		max = token32{}"#,
c! r#"		position, tokenIndex = 0, 0"#,
c! r#""#,
c! r#"		p.buffer = []rune(p.Buffer)"#,
c! r#"		if len(p.buffer) == 0 || p.buffer[len(p.buffer)-1] != endSymbol {"#,
c! r#"			p.buffer = append(p.buffer, endSymbol)"#,
c! r#"		}"#,
c! r#"		buffer = p.buffer"#,
c! r#"	}"#,
c! r#"	p.reset()"#,
c! r#""#,
c! r#"	_rules := p.rules"#,
c! r#"	tree := p.tokens32"#,
c! r#"	p.parse = func(rule ...int) error {"#,
c! r#"		r := 1"#,
c! r#"		if len(rule) > 0 {"#,
c! r#"			r = rule[0]"#,
c! r#"		}"#,
c! r#"		matches := p.rules[r]()"#,
c! r#"		p.tokens32 = tree"#,
c! r#"		if matches {"#,
c! r#"			p.Trim(tokenIndex)"#,
c! r#"			return nil"#,
c! r#"		}"#,
c! r#"		return &parseError{p, max}"#,
c! r#"	}"#,
c! r#""#,
c! r#"	add := func(rule pegRule, begin uint32) {"#,
c! r#"		tree.Add(rule, begin, position, tokenIndex)"#,
c! r#"		tokenIndex++"#,
c! r#"		if begin != position && position > max.end {"#,
c! r#"			max = token32{rule, begin, position}"#,
c! r#"		}"#,
c! r#"	}"#,
c! r#""#,
c! r#"	matchDot := func() bool {"#,
c! r#"		if buffer[position] != endSymbol {"#,
c! r#"			position++"#,
c! r#"			return true"#,
c! r#"		}"#,
c! r#"		return false"#,
c! r#"	}"#,
c! r#""#,
c! r#"	/*matchChar := func(c byte) bool {"#,
c! r#"		if buffer[position] == c {"#,
c! r#"			position++"#,
c! r#"			return true"#,
c! r#"		}"#,
c! r#"		return false"#,
c! r#"	}*/"#,
c! r#""#,
c! r#"	/*matchRange := func(lower byte, upper byte) bool {"#,
c! r#"		if c := buffer[position]; c >= lower && c <= upper {"#,
c! r#"			position++"#,
c! r#"			return true"#,
c! r#"		}"#,
c! r#"		return false"#,
c! r#"	}*/"#,
c! r#""#,
c! r#"	_rules = [...]func() bool{"#,
c! r#"		nil,"#,
c! r#"	}"#,
c! r#"	p.rules = _rules"#,
c! r#"	return nil"#,
c! r#"}"#]

/-- The text of these lines. -/
def supportText : Str := supportLines.flatMap (· ++ ['\n'])

end Verif.Gen

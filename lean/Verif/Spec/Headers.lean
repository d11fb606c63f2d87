import Verif.Basic.Str

/-!
# Headers of the standard libraries

Written from the C++ standard and from the `#include` lines of libstdc++ 13 and glibc (files named `bits/...`, `ext/...`, `backward/...`,
`*.h`), and of libc++ (names that begin with `_`); not from the model.
-/

namespace Binder.Spec

/-- Public headers with names of namespace `std` that they declare. -/
def synopsis : List (Str × List Str) :=
  [(c!"<algorithm>", [c!"std::min", c!"std::iter_swap", c!"std::move_backward", c!"std::set_union"]),
   (c!"<atomic>", [c!"std::memory_order", c!"std::atomic_signal_fence", c!"std::atomic_thread_fence"]),
   (c!"<cwchar>", [c!"std::mbstate_t"]),
   (c!"<exception>", [c!"std::nested_exception", c!"std::set_terminate"]),
   (c!"<functional>", [c!"std::function", c!"std::bad_function_call", c!"std::_Manager_operation"]),
   (c!"<ios>", [c!"std::basic_ios"]),
   (c!"<iterator>", [c!"std::advance", c!"std::distance", c!"std::iterator", c!"std::iterator_traits", c!"std::reverse_iterator",
     c!"std::input_iterator_tag", c!"std::forward_iterator_tag", c!"std::bidirectional_iterator_tag", c!"std::random_access_iterator_tag",
     c!"std::begin", c!"std::end"]),
   (c!"<list>", [c!"std::list"]),
   (c!"<locale>", [c!"std::locale", c!"std::ctype", c!"std::ctype_base", c!"std::ctype_byname", c!"std::codecvt", c!"std::codecvt_base",
     c!"std::codecvt_byname", c!"std::num_get", c!"std::num_put", c!"std::numpunct", c!"std::numpunct_byname", c!"std::money_base",
     c!"std::money_base::pattern", c!"std::messages_base", c!"std::time_base"]),
   (c!"<map>", [c!"std::map"]),
   (c!"<memory>", [c!"std::allocator", c!"std::allocator_traits", c!"std::allocator_arg_t", c!"std::uninitialized_copy"]),
   (c!"<mutex>", [c!"std::mutex", c!"std::lock_guard", c!"std::unique_lock", c!"std::adopt_lock_t", c!"std::defer_lock", c!"std::defer_lock_t",
     c!"std::try_to_lock", c!"std::try_to_lock_t"]),
   (c!"<new>", [c!"std::set_new_handler"]),
   (c!"<regex>", [c!"std::basic_regex", c!"std::regex_traits"]),
   (c!"<set>", [c!"std::set"]),
   (c!"<stack>", [c!"std::stack"]),
   (c!"<string>", [c!"std::basic_string", c!"std::char_traits"]),
   (c!"<thread>", [c!"std::thread::id"]),
   (c!"<utility>", [c!"std::move", c!"std::pair"]),
   (c!"<vector>", [c!"std::vector"])]

/-- Public headers with internal headers that they include, directly or not. -/
def includedBy : List (Str × List Str) :=
  [(c!"<algorithm>", [c!"<bits/algorithmfwd.h>", c!"<bits/stl_algo.h>", c!"<bits/stl_heap.h>"]),
   (c!"<atomic>", [c!"<bits/atomic_base.h>"]),
   (c!"<cctype>", [c!"<ctype.h>"]),
   (c!"<csetjmp>", [c!"<bits/setjmp.h>", c!"<bits/types/struct___jmp_buf_tag.h>"]),
   (c!"<cstdio>", [c!"<bits/types/struct_FILE.h>"]),
   (c!"<cwchar>", [c!"<wchar.h>", c!"<bits/types/__mbstate_t.h>"]),
   (c!"<cwctype>", [c!"<_wctype.h>"]),
   (c!"<deque>", [c!"<bits/stl_deque.h>"]),
   (c!"<exception>", [c!"<bits/exception.h>"]),
   (c!"<forward_list>", [c!"<bits/forward_list.h>"]),
   (c!"<fstream>", [c!"<bits/fstream.tcc>"]),
   (c!"<functional>", [c!"<bits/stl_function.h>", c!"<bits/functional_hash.h>", c!"<__functional_base>"]),
   (c!"<ios>", [c!"<bits/ios_base.h>", c!"<bits/postypes.h>", c!"<bits/types/__mbstate_t.h>", c!"<bits/streambuf_iterator.h>"]),
   (c!"<istream>", [c!"<bits/istream.tcc>"]),
   (c!"<iterator>", [c!"<bits/stl_iterator.h>", c!"<bits/streambuf_iterator.h>"]),
   (c!"<list>", [c!"<bits/stl_list.h>"]),
   (c!"<locale>", [c!"<bits/locale_classes.h>", c!"<bits/locale_classes.tcc>", c!"<__locale>"]),
   (c!"<map>", [c!"<bits/stl_map.h>", c!"<bits/stl_multimap.h>", c!"<bits/stl_tree.h>", c!"<__tree>"]),
   (c!"<memory>", [c!"<bits/shared_ptr.h>", c!"<bits/shared_ptr_base.h>", c!"<bits/unique_ptr.h>", c!"<backward/auto_ptr.h>",
     c!"<bits/uses_allocator.h>", c!"<bits/alloc_traits.h>", c!"<bits/ptr_traits.h>", c!"<bits/stl_uninitialized.h>", c!"<ext/concurrence.h>",
     c!"<bits/gthr-default.h>"]),
   (c!"<mutex>", [c!"<__mutex_base>", c!"<bits/gthr-default.h>"]),
   (c!"<ostream>", [c!"<bits/ostream.tcc>"]),
   (c!"<pthread.h>", [c!"<bits/pthreadtypes.h>", c!"<bits/pthreadtypes-arch.h>", c!"<bits/pthread_stack_min-dynamic.h>",
     c!"<bits/thread-shared-types.h>", c!"<bits/struct_mutex.h>", c!"<bits/struct_rwlock.h>", c!"<bits/types/struct_sched_param.h>",
     c!"<bits/sched.h>"]),
   (c!"<queue>", [c!"<bits/stl_queue.h>", c!"<bits/stl_heap.h>"]),
   (c!"<random>", [c!"<bits/random.h>"]),
   (c!"<regex>", [c!"<bits/regex_cursor.h>", c!"<bits/regex_nfa.h>"]),
   (c!"<sched.h>", [c!"<bits/sched.h>", c!"<bits/types/struct_sched_param.h>"]),
   (c!"<set>", [c!"<bits/stl_multiset.h>", c!"<bits/stl_tree.h>", c!"<__tree>"]),
   (c!"<sstream>", [c!"<bits/sstream.tcc>"]),
   (c!"<stack>", [c!"<bits/stl_stack.h>"]),
   (c!"<stdio.h>", [c!"<bits/libio.h>", c!"<bits/types/struct_FILE.h>"]),
   (c!"<streambuf>", [c!"<bits/streambuf.tcc>"]),
   (c!"<string>", [c!"<bits/basic_string.h>", c!"<bits/basic_string.tcc>", c!"<__string>"]),
   (c!"<system_error>", [c!"<bits/error_constants.h>"]),
   (c!"<time.h>", [c!"<bits/types/struct_tm.h>", c!"<bits/types/struct_timespec.h>", c!"<bits/types/struct_itimerspec.h>"]),
   (c!"<unordered_map>", [c!"<bits/unordered_map.h>", c!"<bits/hashtable.h>", c!"<bits/hashtable_policy.h>", c!"<__hash_table>"]),
   (c!"<unordered_set>", [c!"<bits/unordered_set.h>", c!"<bits/hashtable.h>", c!"<bits/hashtable_policy.h>", c!"<__hash_table>"]),
   (c!"<vector>", [c!"<bits/stl_vector.h>", c!"<bits/stl_bvector.h>", c!"<__bit_reference>"])]

/-- The table lists `x` under `header`. -/
def Lists (table : List (Str × List Str)) (header x : Str) : Prop := ∃ xs, (header, xs) ∈ table ∧ x ∈ xs

/-- The internal header is somewhere in the table. -/
def Internal (file : Str) : Prop := ∃ header, Lists includedBy header file

end Binder.Spec
